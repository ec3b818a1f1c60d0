import Verif.Model.Py
import Mathlib.Data.Real.Basic
import Mathlib.Data.Rat.Defs
import Mathlib.Data.List.DropRight

/-!
# File format

`src/disc_solver/file_format/_dumpers.py`, `_loaders.py`, `_utils.py` and the constructors
in `_containers.py`.  A file is a tree of named groups and datasets; a group has a label
and a version, attributes and members.  The dumpers and loaders are tables saying where
each field goes and where each argument of the constructor comes from; the tables were
taken from the source mechanically.

Assumptions about `h5preserve` and `h5py`, which are not modelled further:
* `None`, text, Python numbers and booleans, and the containers with a registered dumper
  come back as themselves; arrays and `numpy` numbers are stored as datasets and come back
  as a `DatasetContainer`, whose `"data"` is the array;
* attributes hold text, numbers, booleans and arrays, and come back with the same value;
  anything else, `None` in particular, is refused with `TypeError`;
* the members of a group are found by name and listed in the order of their names;
* a `DelayedContainer` that was never written leaves no member behind;
* the names of members are legal (not empty, no slash).

The loading of stored solutions on demand is modelled separately at the end.
-/

namespace DiscSolver.FileFormat

/-- A floating point number. -/
inductive Fl where
  | nan
  | val (x : ℝ)

/-- An array; a `numpy` number has shape `[]`.  Python lists of numbers and of arrays,
which `_finalise` turns into arrays, are represented by these arrays. -/
structure NArr where
  shape : List ℕ
  data : List Fl

/-- The container classes with a table. -/
inductive Cls where
  | InternalData | InitialConditions | Solution | ConfigInput | SolutionInput | Run
  | JacobianData | MCMCVars | slice
deriving DecidableEq

/-- Python objects as far as they are stored. -/
inductive Obj where
  | none
  | text (s : String)
  | bool (b : Bool)
  | num (x : Fl)
  | arr (a : NArr)
  /-- a `DatasetContainer` with an array -/
  | dset (a : NArr)
  /-- a `DatasetContainer` with byte strings, given by the text they encode -/
  | strs (l : List String)
  | obj (c : Cls) (fields : List (String × Obj))
  | problems (p : List (String × List String))
  | solutions (d : List (String × Obj))
  /-- a `DelayedContainer` -/
  | delayed

/-- What is in the file. -/
inductive Node where
  | absent
  | none
  | text (s : String)
  | bool (b : Bool)
  | num (x : Fl)
  | data (a : NArr)
  | strs (l : List String)
  | group (label : String) (version : ℕ) (attrs : List (String × Obj))
      (members : List (String × Node))

/-! ## Dumpers -/

/-- Where a dumper puts the fields: `attrs` and members, under their own names. -/
structure Layout where
  label : String
  version : ℕ
  attrs : List String
  members : List String

/-- `_dumpers.py:18-34`. -/
def dumpInternalData : Layout :=
  { label := "InternalData"
    version := 3
    attrs := []
    members := ["derivs", "params", "angles", "jacobian_data", "v_r_normal", "v_φ_normal",
      "ρ_normal", "v_r_taylor", "v_φ_taylor", "ρ_taylor", "problems"] }

/-- `_dumpers.py:38-49`. -/
def dumpInitialConditions : Layout :=
  { label := "InitialConditions"
    version := 3
    attrs := ["norm_kepler_sq", "a_0", "η_O", "η_A", "η_H", "γ", "init_con"]
    members := ["angles"] }

/-- `_dumpers.py:53-70`. -/
def dumpSolution : Layout :=
  { label := "Solution"
    version := 4
    attrs := ["flag", "coordinate_system", "is_post_shock_only"]
    members := ["angles", "solution", "internal_data", "initial_conditions", "t_roots",
      "y_roots", "solution_input", "derivatives", "sonic_point", "sonic_point_values"] }

/-- `_dumpers.py:74-108`. -/
def dumpConfigInput : Layout :=
  { label := "ConfigInput"
    version := 14
    attrs := ["start", "stop", "taylor_stop_angle", "max_steps", "num_angles", "label",
      "relative_tolerance", "absolute_tolerance", "γ", "nwalkers", "iterations", "threads",
      "target_velocity", "split_method", "v_rin_on_c_s", "v_a_on_c_s", "c_s_on_v_k", "η_O",
      "η_H", "η_A", "η_derivs", "use_taylor_jump", "use_E_r"]
    members := ["jump_before_sonic", "mcmc_vars", "v_θ_sonic_crit", "after_sonic",
      "sonic_interp_size", "interp_range", "interp_slice"] }

/-- `_dumpers.py:112-145`. -/
def dumpSolutionInput : Layout :=
  { label := "SolutionInput"
    version := 14
    attrs := ["start", "stop", "taylor_stop_angle", "max_steps", "num_angles",
      "relative_tolerance", "absolute_tolerance", "nwalkers", "iterations", "threads",
      "target_velocity", "split_method", "γ", "v_rin_on_c_s", "v_a_on_c_s", "c_s_on_v_k",
      "η_O", "η_H", "η_A", "η_derivs", "use_taylor_jump", "use_E_r"]
    members := ["jump_before_sonic", "mcmc_vars", "v_θ_sonic_crit", "after_sonic",
      "sonic_interp_size", "interp_range", "interp_slice"] }

/-- `_dumpers.py:149-165`. -/
def dumpRun : Layout :=
  { label := "Run"
    version := 6
    attrs := ["is_post_shock_only"]
    members := ["time", "config_filename", "config_input", "float_type", "final_solution",
      "solutions", "disc_solver_version", "sonic_method", "use_E_r",
      "based_on_solution_filename", "based_on_solution_solution_name"] }

/-- `_dumpers.py:179-188`. -/
def dumpJacobianData : Layout :=
  { label := "JacobianData"
    version := 1
    attrs := []
    members := ["derivs", "params", "angles", "jacobians"] }

/-- `_dumpers.py:197-202`. -/
def dumpMCMCVars : Layout :=
  { label := "MCMCVars"
    version := 1
    attrs := []
    members := ["with_v_r", "with_v_a", "with_v_k"] }

/-- `_dumpers.py:206-211`. -/
def dumpslice : Layout :=
  { label := "slice"
    version := 1
    attrs := []
    members := ["start", "stop", "step"] }

/-- The dumpers (`ds_registry.dumper`). -/
def dumper : Cls → Layout
  | .InternalData => dumpInternalData
  | .InitialConditions => dumpInitialConditions
  | .Solution => dumpSolution
  | .ConfigInput => dumpConfigInput
  | .SolutionInput => dumpSolutionInput
  | .Run => dumpRun
  | .JacobianData => dumpJacobianData
  | .MCMCVars => dumpMCMCVars
  | .slice => dumpslice

/-- Storing an attribute. -/
def asAttr : Obj → Except PyErr Obj
  | .text s => .ok (.text s)
  | .bool b => .ok (.bool b)
  | .num x => .ok (.num x)
  | .arr a => .ok (.arr a)
  | _ => .error .TypeError

/-- Attribute access on an object with these fields. -/
def getField {α : Type} (fields : List (String × α)) (k : String) : Except PyErr α :=
  match fields.lookup k with
  | some v => .ok v
  | none => .error .AttributeError

/-- `_finalise` of `InternalData` and `JacobianData` (`_containers.py:391-407, 450-470`):
empty arrays get their number of columns; the other fields keep their values. -/
def finaliseShape (c : Cls) (k : String) (a : NArr) : NArr :=
  if a.data = [] then
    if (c = .InternalData ∨ c = .JacobianData) ∧ (k = "derivs" ∨ k = "params") then
      ⟨[0, 11], []⟩
    else if c = .JacobianData ∧ k = "jacobians" then ⟨[0, 11, 11], []⟩
    else a
  else a

/-- The same for a member about to be written. -/
def finaliseNode (c : Cls) (k : String) : Node → Node
  | .data a => .data (finaliseShape c k a)
  | n => n

/-- `numpy` byte strings lose trailing zero bytes. -/
def stripNul (s : String) : String := String.ofList (s.toList.rdropWhile (· = '\x00'))

/-- Collecting results, the first error wins. -/
def collect {α : Type} : List (String × Except PyErr α) → Except PyErr (List (String × α))
  | [] => .ok []
  | (_, .error e) :: _ => .error e
  | (k, .ok v) :: l =>
    match collect l with
    | .error e => .error e
    | .ok m => .ok ((k, v) :: m)

/-- The value a written field contributes. -/
def pick (c : Cls) (written : List (String × Except PyErr Node)) (k : String) :
    Except PyErr Node :=
  match getField written k with
  | .error e => .error e
  | .ok (.error e) => .error e
  | .ok (.ok n) => .ok (finaliseNode c k n)

/-- The attribute a field contributes. -/
def pickAttr (fields : List (String × Obj)) (k : String) : Except PyErr Obj :=
  match getField fields k with
  | .error e => .error e
  | .ok o => asAttr o

mutual
/-- Writing an object (`_dumpers.py`). -/
def write : Obj → Except PyErr Node
  | .none => .ok .none
  | .text s => .ok (.text s)
  | .bool b => .ok (.bool b)
  | .num x => .ok (.num x)
  | .arr a => .ok (.data a)
  | .dset a => .ok (.data a)
  | .strs l => .ok (.strs l)
  | .obj c fields =>
    match collect ((dumper c).attrs.map fun k => (k, pickAttr fields k)) with
    | .error e => .error e
    | .ok attrs =>
      match collect ((dumper c).members.map fun k => (k, pick c (writeFields fields) k)) with
      | .error e => .error e
      | .ok members => .ok (.group (dumper c).label (dumper c).version attrs members)
  -- `_problems_dumper` (`_dumpers.py:169-175`)
  | .problems p => .ok (.group "Problems" 1 []
      (p.map fun e => (e.1, .strs (e.2.map stripNul))))
  -- `_solutions_dumper` (`_dumpers.py:192-193`)
  | .solutions d =>
    match collect (writeFields d) with
    | .error e => .error e
    | .ok members => .ok (.group "Solutions" 1 [] members)
  | .delayed => .ok .absent
/-- Writing the fields of an object. -/
def writeFields : List (String × Obj) → List (String × Except PyErr Node)
  | [] => []
  | (k, o) :: l => (k, write o) :: writeFields l
end

/-! ## Loaders -/

/-- Where an argument comes from. -/
inductive Src where
  /-- `group.attrs[k]` -/
  | attr (k : String)
  /-- `group[k]` -/
  | member (k : String)
  /-- `group[k]["data"]` -/
  | data (k : String)
  /-- `None if group[k] is None else group[k]["data"]` -/
  | dataOpt (k : String)
  /-- `ensure_fully_loaded(group[k])` -/
  | loaded (k : String)
  | const (o : Obj)
  /-- `5/4 - group.attrs["β"]` -/
  | βnum
  /-- `_str_β_to_γ(group.attrs["β"])` -/
  | βtext

/-- A call of a constructor. -/
abbrev Table := List (String × Src)

/-- `_slice_loader` (`_loaders.py:1327-1332`). -/
def loadslice1 : Table :=
  [("start", .loaded "start"), ("stop", .loaded "stop"), ("step", .loaded "step")]

/-- `_internal_load` (`_loaders.py:15-27`). -/
def loadInternalData1 : Table :=
  [("derivs", .data "derivs"), ("params", .data "params"), ("angles", .data "angles"),
   ("v_r_normal", .data "v_r_normal"), ("v_φ_normal", .data "v_φ_normal"),
   ("ρ_normal", .data "ρ_normal"), ("v_r_taylor", .data "v_r_taylor"),
   ("v_φ_taylor", .data "v_φ_taylor"), ("ρ_taylor", .data "ρ_taylor"),
   ("jacobians", .const .none)]

/-- `_internal_load2` (`_loaders.py:31-44`). -/
def loadInternalData2 : Table :=
  [("derivs", .data "derivs"), ("params", .data "params"), ("angles", .data "angles"),
   ("v_r_normal", .data "v_r_normal"), ("v_φ_normal", .data "v_φ_normal"),
   ("ρ_normal", .data "ρ_normal"), ("v_r_taylor", .data "v_r_taylor"),
   ("v_φ_taylor", .data "v_φ_taylor"), ("ρ_taylor", .data "ρ_taylor"),
   ("problems", .member "problems"), ("jacobians", .const .none)]

/-- `_internal_load3` (`_loaders.py:48-61`). -/
def loadInternalData3 : Table :=
  [("derivs", .data "derivs"), ("params", .data "params"), ("angles", .data "angles"),
   ("v_r_normal", .data "v_r_normal"), ("v_φ_normal", .data "v_φ_normal"),
   ("ρ_normal", .data "ρ_normal"), ("v_r_taylor", .data "v_r_taylor"),
   ("v_φ_taylor", .data "v_φ_taylor"), ("ρ_taylor", .data "ρ_taylor"),
   ("problems", .member "problems"), ("jacobian_data", .member "jacobian_data")]

/-- `_initial_load_old` (`_loaders.py:93-103`). -/
def loadInitialConditions1 : Table :=
  [("norm_kepler_sq", .attr "norm_kepler_sq"), ("a_0", .const (.num .nan)),
   ("η_O", .attr "η_O"), ("η_A", .attr "η_A"), ("η_H", .attr "η_H"), ("γ", .βnum),
   ("init_con", .attr "init_con"), ("angles", .data "angles")]

/-- `_initial_load` (`_loaders.py:79-89`). -/
def loadInitialConditions2 : Table :=
  [("norm_kepler_sq", .attr "norm_kepler_sq"), ("a_0", .attr "a_0"), ("η_O", .attr "η_O"),
   ("η_A", .attr "η_A"), ("η_H", .attr "η_H"), ("γ", .βnum), ("init_con", .attr "init_con"),
   ("angles", .data "angles")]

/-- `_initial_load3` (`_loaders.py:65-75`). -/
def loadInitialConditions3 : Table :=
  [("norm_kepler_sq", .attr "norm_kepler_sq"), ("a_0", .attr "a_0"), ("η_O", .attr "η_O"),
   ("η_A", .attr "η_A"), ("η_H", .attr "η_H"), ("γ", .attr "γ"),
   ("init_con", .attr "init_con"), ("angles", .data "angles")]

/-- `_solution_loader` (`_loaders.py:107-130`). -/
def loadSolution1 : Table :=
  [("flag", .attr "flag"), ("coordinate_system", .attr "coordinate_system"),
   ("angles", .data "angles"), ("solution", .data "solution"),
   ("internal_data", .member "internal_data"),
   ("initial_conditions", .member "initial_conditions"),
   ("solution_input", .member "solution_input"), ("t_roots", .dataOpt "t_roots"),
   ("y_roots", .dataOpt "y_roots"), ("derivatives", .const .none),
   ("sonic_point", .const .none), ("sonic_point_values", .const .none)]

/-- `_solution_loader_2` (`_loaders.py:134-157`). -/
def loadSolution2 : Table :=
  [("flag", .attr "flag"), ("coordinate_system", .attr "coordinate_system"),
   ("angles", .data "angles"), ("solution", .data "solution"),
   ("internal_data", .member "internal_data"),
   ("initial_conditions", .member "initial_conditions"),
   ("solution_input", .member "solution_input"), ("t_roots", .dataOpt "t_roots"),
   ("y_roots", .dataOpt "y_roots"), ("derivatives", .member "derivatives"),
   ("sonic_point", .const .none), ("sonic_point_values", .const .none)]

/-- `_solution_loader_3` (`_loaders.py:161-193`). -/
def loadSolution3 : Table :=
  [("flag", .attr "flag"), ("coordinate_system", .attr "coordinate_system"),
   ("angles", .data "angles"), ("solution", .data "solution"),
   ("internal_data", .member "internal_data"),
   ("initial_conditions", .member "initial_conditions"),
   ("solution_input", .member "solution_input"), ("t_roots", .dataOpt "t_roots"),
   ("y_roots", .dataOpt "y_roots"), ("sonic_point", .dataOpt "sonic_point"),
   ("sonic_point_values", .dataOpt "sonic_point_values"),
   ("derivatives", .member "derivatives")]

/-- `_solution_loader_4` (`_loaders.py:197-230`). -/
def loadSolution4 : Table :=
  [("flag", .attr "flag"), ("coordinate_system", .attr "coordinate_system"),
   ("angles", .data "angles"), ("solution", .data "solution"),
   ("internal_data", .member "internal_data"),
   ("initial_conditions", .member "initial_conditions"),
   ("solution_input", .member "solution_input"), ("t_roots", .dataOpt "t_roots"),
   ("y_roots", .dataOpt "y_roots"), ("sonic_point", .dataOpt "sonic_point"),
   ("sonic_point_values", .dataOpt "sonic_point_values"),
   ("derivatives", .member "derivatives"), ("is_post_shock_only", .attr "is_post_shock_only")]

/-- `_config_loader` (`_loaders.py:234-253`). -/
def loadConfigInput1 : Table :=
  [("start", .attr "start"), ("stop", .attr "stop"),
   ("taylor_stop_angle", .attr "taylor_stop_angle"), ("max_steps", .attr "max_steps"),
   ("num_angles", .attr "num_angles"), ("label", .attr "label"),
   ("relative_tolerance", .attr "relative_tolerance"),
   ("absolute_tolerance", .attr "absolute_tolerance"),
   ("split_method", .const (.text "v_θ_deriv")), ("γ", .βtext),
   ("v_rin_on_c_s", .attr "v_rin_on_c_s"), ("v_a_on_c_s", .attr "v_a_on_c_s"),
   ("c_s_on_v_k", .attr "c_s_on_v_k"), ("η_O", .attr "η_O"), ("η_H", .attr "η_H"),
   ("η_A", .attr "η_A"), ("use_E_r", .const .none)]

/-- `_config_loader2` (`_loaders.py:257-277`). -/
def loadConfigInput2 : Table :=
  [("start", .attr "start"), ("stop", .attr "stop"),
   ("taylor_stop_angle", .attr "taylor_stop_angle"), ("max_steps", .attr "max_steps"),
   ("num_angles", .attr "num_angles"), ("label", .attr "label"),
   ("relative_tolerance", .attr "relative_tolerance"),
   ("absolute_tolerance", .attr "absolute_tolerance"),
   ("split_method", .const (.text "v_θ_deriv")), ("γ", .βtext),
   ("v_rin_on_c_s", .attr "v_rin_on_c_s"), ("v_a_on_c_s", .attr "v_a_on_c_s"),
   ("c_s_on_v_k", .attr "c_s_on_v_k"), ("η_O", .attr "η_O"), ("η_H", .attr "η_H"),
   ("η_A", .attr "η_A"), ("jump_before_sonic", .member "jump_before_sonic"),
   ("use_E_r", .const .none)]

/-- `_config_loader3` (`_loaders.py:281-302`). -/
def loadConfigInput3 : Table :=
  [("start", .attr "start"), ("stop", .attr "stop"),
   ("taylor_stop_angle", .attr "taylor_stop_angle"), ("max_steps", .attr "max_steps"),
   ("num_angles", .attr "num_angles"), ("label", .attr "label"),
   ("relative_tolerance", .attr "relative_tolerance"),
   ("absolute_tolerance", .attr "absolute_tolerance"),
   ("split_method", .const (.text "v_θ_deriv")), ("γ", .βtext),
   ("v_rin_on_c_s", .attr "v_rin_on_c_s"), ("v_a_on_c_s", .attr "v_a_on_c_s"),
   ("c_s_on_v_k", .attr "c_s_on_v_k"), ("η_O", .attr "η_O"), ("η_H", .attr "η_H"),
   ("η_A", .attr "η_A"), ("jump_before_sonic", .member "jump_before_sonic"),
   ("η_derivs", .attr "η_derivs"), ("use_E_r", .const .none)]

/-- `_config_loader4` (`_loaders.py:306-331`). -/
def loadConfigInput4 : Table :=
  [("start", .attr "start"), ("stop", .attr "stop"),
   ("taylor_stop_angle", .attr "taylor_stop_angle"), ("max_steps", .attr "max_steps"),
   ("num_angles", .attr "num_angles"), ("label", .attr "label"),
   ("relative_tolerance", .attr "relative_tolerance"),
   ("absolute_tolerance", .attr "absolute_tolerance"), ("γ", .attr "γ"),
   ("v_rin_on_c_s", .attr "v_rin_on_c_s"), ("v_a_on_c_s", .attr "v_a_on_c_s"),
   ("c_s_on_v_k", .attr "c_s_on_v_k"), ("η_O", .attr "η_O"), ("η_H", .attr "η_H"),
   ("η_A", .attr "η_A"), ("jump_before_sonic", .member "jump_before_sonic"),
   ("η_derivs", .attr "η_derivs"), ("nwalkers", .const .none), ("iterations", .const .none),
   ("threads", .const .none), ("target_velocity", .const .none),
   ("split_method", .const .none), ("use_E_r", .const .none)]

/-- `_config_loader5` (`_loaders.py:335-359`). -/
def loadConfigInput5 : Table :=
  [("start", .attr "start"), ("stop", .attr "stop"),
   ("taylor_stop_angle", .attr "taylor_stop_angle"), ("max_steps", .attr "max_steps"),
   ("num_angles", .attr "num_angles"), ("label", .attr "label"),
   ("relative_tolerance", .attr "relative_tolerance"),
   ("absolute_tolerance", .attr "absolute_tolerance"), ("γ", .attr "γ"),
   ("nwalkers", .attr "nwalkers"), ("iterations", .attr "iterations"),
   ("threads", .attr "threads"), ("split_method", .const (.text "v_θ_deriv")),
   ("v_rin_on_c_s", .attr "v_rin_on_c_s"), ("v_a_on_c_s", .attr "v_a_on_c_s"),
   ("c_s_on_v_k", .attr "c_s_on_v_k"), ("η_O", .attr "η_O"), ("η_H", .attr "η_H"),
   ("η_A", .attr "η_A"), ("jump_before_sonic", .member "jump_before_sonic"),
   ("η_derivs", .attr "η_derivs"), ("use_E_r", .const .none)]

/-- `_config_loader6` (`_loaders.py:363-388`). -/
def loadConfigInput6 : Table :=
  [("start", .attr "start"), ("stop", .attr "stop"),
   ("taylor_stop_angle", .attr "taylor_stop_angle"), ("max_steps", .attr "max_steps"),
   ("num_angles", .attr "num_angles"), ("label", .attr "label"),
   ("relative_tolerance", .attr "relative_tolerance"),
   ("absolute_tolerance", .attr "absolute_tolerance"), ("γ", .attr "γ"),
   ("nwalkers", .attr "nwalkers"), ("iterations", .attr "iterations"),
   ("threads", .attr "threads"), ("target_velocity", .attr "target_velocity"),
   ("split_method", .const (.text "v_θ_deriv")), ("v_rin_on_c_s", .attr "v_rin_on_c_s"),
   ("v_a_on_c_s", .attr "v_a_on_c_s"), ("c_s_on_v_k", .attr "c_s_on_v_k"),
   ("η_O", .attr "η_O"), ("η_H", .attr "η_H"), ("η_A", .attr "η_A"),
   ("jump_before_sonic", .member "jump_before_sonic"), ("η_derivs", .attr "η_derivs"),
   ("use_E_r", .const .none)]

/-- `_config_loader7` (`_loaders.py:392-417`). -/
def loadConfigInput7 : Table :=
  [("start", .attr "start"), ("stop", .attr "stop"),
   ("taylor_stop_angle", .attr "taylor_stop_angle"), ("max_steps", .attr "max_steps"),
   ("num_angles", .attr "num_angles"), ("label", .attr "label"),
   ("relative_tolerance", .attr "relative_tolerance"),
   ("absolute_tolerance", .attr "absolute_tolerance"), ("γ", .attr "γ"),
   ("nwalkers", .attr "nwalkers"), ("iterations", .attr "iterations"),
   ("threads", .attr "threads"), ("target_velocity", .attr "target_velocity"),
   ("split_method", .attr "split_method"), ("v_rin_on_c_s", .attr "v_rin_on_c_s"),
   ("v_a_on_c_s", .attr "v_a_on_c_s"), ("c_s_on_v_k", .attr "c_s_on_v_k"),
   ("η_O", .attr "η_O"), ("η_H", .attr "η_H"), ("η_A", .attr "η_A"),
   ("jump_before_sonic", .member "jump_before_sonic"), ("η_derivs", .attr "η_derivs"),
   ("use_E_r", .const .none)]

/-- `_config_loader8` (`_loaders.py:421-447`). -/
def loadConfigInput8 : Table :=
  [("start", .attr "start"), ("stop", .attr "stop"),
   ("taylor_stop_angle", .attr "taylor_stop_angle"), ("max_steps", .attr "max_steps"),
   ("num_angles", .attr "num_angles"), ("label", .attr "label"),
   ("relative_tolerance", .attr "relative_tolerance"),
   ("absolute_tolerance", .attr "absolute_tolerance"), ("γ", .attr "γ"),
   ("nwalkers", .attr "nwalkers"), ("iterations", .attr "iterations"),
   ("threads", .attr "threads"), ("target_velocity", .attr "target_velocity"),
   ("split_method", .attr "split_method"), ("v_rin_on_c_s", .attr "v_rin_on_c_s"),
   ("v_a_on_c_s", .attr "v_a_on_c_s"), ("c_s_on_v_k", .attr "c_s_on_v_k"),
   ("η_O", .attr "η_O"), ("η_H", .attr "η_H"), ("η_A", .attr "η_A"),
   ("jump_before_sonic", .member "jump_before_sonic"), ("η_derivs", .attr "η_derivs"),
   ("use_taylor_jump", .attr "use_taylor_jump"), ("use_E_r", .const .none)]

/-- `_config_loader9` (`_loaders.py:451-478`). -/
def loadConfigInput9 : Table :=
  [("start", .attr "start"), ("stop", .attr "stop"),
   ("taylor_stop_angle", .attr "taylor_stop_angle"), ("max_steps", .attr "max_steps"),
   ("num_angles", .attr "num_angles"), ("label", .attr "label"),
   ("relative_tolerance", .attr "relative_tolerance"),
   ("absolute_tolerance", .attr "absolute_tolerance"), ("γ", .attr "γ"),
   ("nwalkers", .attr "nwalkers"), ("iterations", .attr "iterations"),
   ("threads", .attr "threads"), ("target_velocity", .attr "target_velocity"),
   ("split_method", .attr "split_method"), ("v_rin_on_c_s", .attr "v_rin_on_c_s"),
   ("v_a_on_c_s", .attr "v_a_on_c_s"), ("c_s_on_v_k", .attr "c_s_on_v_k"),
   ("η_O", .attr "η_O"), ("η_H", .attr "η_H"), ("η_A", .attr "η_A"),
   ("jump_before_sonic", .member "jump_before_sonic"), ("η_derivs", .attr "η_derivs"),
   ("use_taylor_jump", .attr "use_taylor_jump"), ("mcmc_vars", .member "mcmc_vars"),
   ("use_E_r", .const .none)]

/-- `_config_loader10` (`_loaders.py:482-510`). -/
def loadConfigInput10 : Table :=
  [("start", .attr "start"), ("stop", .attr "stop"),
   ("taylor_stop_angle", .attr "taylor_stop_angle"), ("max_steps", .attr "max_steps"),
   ("num_angles", .attr "num_angles"), ("label", .attr "label"),
   ("relative_tolerance", .attr "relative_tolerance"),
   ("absolute_tolerance", .attr "absolute_tolerance"), ("γ", .attr "γ"),
   ("nwalkers", .attr "nwalkers"), ("iterations", .attr "iterations"),
   ("threads", .attr "threads"), ("target_velocity", .attr "target_velocity"),
   ("split_method", .attr "split_method"), ("v_rin_on_c_s", .attr "v_rin_on_c_s"),
   ("v_a_on_c_s", .attr "v_a_on_c_s"), ("c_s_on_v_k", .attr "c_s_on_v_k"),
   ("η_O", .attr "η_O"), ("η_H", .attr "η_H"), ("η_A", .attr "η_A"),
   ("jump_before_sonic", .member "jump_before_sonic"), ("η_derivs", .attr "η_derivs"),
   ("use_taylor_jump", .attr "use_taylor_jump"), ("mcmc_vars", .member "mcmc_vars"),
   ("v_θ_sonic_crit", .member "v_θ_sonic_crit"), ("use_E_r", .const .none)]

/-- `_config_loader11` (`_loaders.py:514-543`). -/
def loadConfigInput11 : Table :=
  [("start", .attr "start"), ("stop", .attr "stop"),
   ("taylor_stop_angle", .attr "taylor_stop_angle"), ("max_steps", .attr "max_steps"),
   ("num_angles", .attr "num_angles"), ("label", .attr "label"),
   ("relative_tolerance", .attr "relative_tolerance"),
   ("absolute_tolerance", .attr "absolute_tolerance"), ("γ", .attr "γ"),
   ("nwalkers", .attr "nwalkers"), ("iterations", .attr "iterations"),
   ("threads", .attr "threads"), ("target_velocity", .attr "target_velocity"),
   ("split_method", .attr "split_method"), ("v_rin_on_c_s", .attr "v_rin_on_c_s"),
   ("v_a_on_c_s", .attr "v_a_on_c_s"), ("c_s_on_v_k", .attr "c_s_on_v_k"),
   ("η_O", .attr "η_O"), ("η_H", .attr "η_H"), ("η_A", .attr "η_A"),
   ("jump_before_sonic", .member "jump_before_sonic"), ("η_derivs", .attr "η_derivs"),
   ("use_taylor_jump", .attr "use_taylor_jump"), ("mcmc_vars", .member "mcmc_vars"),
   ("v_θ_sonic_crit", .member "v_θ_sonic_crit"), ("after_sonic", .member "after_sonic"),
   ("use_E_r", .const .none)]

/-- `_config_loader12` (`_loaders.py:547-578`). -/
def loadConfigInput12 : Table :=
  [("start", .attr "start"), ("stop", .attr "stop"),
   ("taylor_stop_angle", .attr "taylor_stop_angle"), ("max_steps", .attr "max_steps"),
   ("num_angles", .attr "num_angles"), ("label", .attr "label"),
   ("relative_tolerance", .attr "relative_tolerance"),
   ("absolute_tolerance", .attr "absolute_tolerance"), ("γ", .attr "γ"),
   ("nwalkers", .attr "nwalkers"), ("iterations", .attr "iterations"),
   ("threads", .attr "threads"), ("target_velocity", .attr "target_velocity"),
   ("split_method", .attr "split_method"), ("v_rin_on_c_s", .attr "v_rin_on_c_s"),
   ("v_a_on_c_s", .attr "v_a_on_c_s"), ("c_s_on_v_k", .attr "c_s_on_v_k"),
   ("η_O", .attr "η_O"), ("η_H", .attr "η_H"), ("η_A", .attr "η_A"),
   ("jump_before_sonic", .member "jump_before_sonic"), ("η_derivs", .attr "η_derivs"),
   ("use_taylor_jump", .attr "use_taylor_jump"), ("mcmc_vars", .member "mcmc_vars"),
   ("v_θ_sonic_crit", .member "v_θ_sonic_crit"), ("after_sonic", .member "after_sonic"),
   ("sonic_interp_size", .member "sonic_interp_size"), ("interp_range", .attr "interp_range"),
   ("use_E_r", .const .none)]

/-- `_config_loader13` (`_loaders.py:582-614`). -/
def loadConfigInput13 : Table :=
  [("start", .attr "start"), ("stop", .attr "stop"),
   ("taylor_stop_angle", .attr "taylor_stop_angle"), ("max_steps", .attr "max_steps"),
   ("num_angles", .attr "num_angles"), ("label", .attr "label"),
   ("relative_tolerance", .attr "relative_tolerance"),
   ("absolute_tolerance", .attr "absolute_tolerance"), ("γ", .attr "γ"),
   ("nwalkers", .attr "nwalkers"), ("iterations", .attr "iterations"),
   ("threads", .attr "threads"), ("target_velocity", .attr "target_velocity"),
   ("split_method", .attr "split_method"), ("v_rin_on_c_s", .attr "v_rin_on_c_s"),
   ("v_a_on_c_s", .attr "v_a_on_c_s"), ("c_s_on_v_k", .attr "c_s_on_v_k"),
   ("η_O", .attr "η_O"), ("η_H", .attr "η_H"), ("η_A", .attr "η_A"),
   ("jump_before_sonic", .member "jump_before_sonic"), ("η_derivs", .attr "η_derivs"),
   ("use_taylor_jump", .attr "use_taylor_jump"), ("mcmc_vars", .member "mcmc_vars"),
   ("v_θ_sonic_crit", .member "v_θ_sonic_crit"), ("after_sonic", .member "after_sonic"),
   ("sonic_interp_size", .member "sonic_interp_size"),
   ("interp_range", .loaded "interp_range"), ("interp_slice", .member "interp_slice"),
   ("use_E_r", .const .none)]

/-- `_config_loader14` (`_loaders.py:618-650`). -/
def loadConfigInput14 : Table :=
  [("start", .attr "start"), ("stop", .attr "stop"),
   ("taylor_stop_angle", .attr "taylor_stop_angle"), ("max_steps", .attr "max_steps"),
   ("num_angles", .attr "num_angles"), ("label", .attr "label"),
   ("relative_tolerance", .attr "relative_tolerance"),
   ("absolute_tolerance", .attr "absolute_tolerance"), ("γ", .attr "γ"),
   ("nwalkers", .attr "nwalkers"), ("iterations", .attr "iterations"),
   ("threads", .attr "threads"), ("target_velocity", .attr "target_velocity"),
   ("split_method", .attr "split_method"), ("v_rin_on_c_s", .attr "v_rin_on_c_s"),
   ("v_a_on_c_s", .attr "v_a_on_c_s"), ("c_s_on_v_k", .attr "c_s_on_v_k"),
   ("η_O", .attr "η_O"), ("η_H", .attr "η_H"), ("η_A", .attr "η_A"),
   ("jump_before_sonic", .member "jump_before_sonic"), ("η_derivs", .attr "η_derivs"),
   ("use_taylor_jump", .attr "use_taylor_jump"), ("mcmc_vars", .member "mcmc_vars"),
   ("v_θ_sonic_crit", .member "v_θ_sonic_crit"), ("after_sonic", .member "after_sonic"),
   ("sonic_interp_size", .member "sonic_interp_size"),
   ("interp_range", .loaded "interp_range"), ("interp_slice", .member "interp_slice"),
   ("use_E_r", .attr "use_E_r")]

/-- `_input_loader` (`_loaders.py:654-672`). -/
def loadSolutionInput1 : Table :=
  [("start", .attr "start"), ("stop", .attr "stop"),
   ("taylor_stop_angle", .attr "taylor_stop_angle"), ("max_steps", .attr "max_steps"),
   ("num_angles", .attr "num_angles"), ("relative_tolerance", .attr "relative_tolerance"),
   ("absolute_tolerance", .attr "absolute_tolerance"),
   ("split_method", .const (.text "v_θ_deriv")), ("γ", .βnum),
   ("v_rin_on_c_s", .attr "v_rin_on_c_s"), ("v_a_on_c_s", .attr "v_a_on_c_s"),
   ("c_s_on_v_k", .attr "c_s_on_v_k"), ("η_O", .attr "η_O"), ("η_H", .attr "η_H"),
   ("η_A", .attr "η_A"), ("use_E_r", .const .none)]

/-- `_input_loader2` (`_loaders.py:676-699`). -/
def loadSolutionInput2 : Table :=
  [("start", .attr "start"), ("stop", .attr "stop"),
   ("taylor_stop_angle", .attr "taylor_stop_angle"), ("max_steps", .attr "max_steps"),
   ("num_angles", .attr "num_angles"), ("relative_tolerance", .attr "relative_tolerance"),
   ("absolute_tolerance", .attr "absolute_tolerance"),
   ("split_method", .const (.text "v_θ_deriv")), ("γ", .βnum),
   ("v_rin_on_c_s", .attr "v_rin_on_c_s"), ("v_a_on_c_s", .attr "v_a_on_c_s"),
   ("c_s_on_v_k", .attr "c_s_on_v_k"), ("η_O", .attr "η_O"), ("η_H", .attr "η_H"),
   ("η_A", .attr "η_A"), ("jump_before_sonic", .dataOpt "jump_before_sonic"),
   ("use_E_r", .const .none)]

/-- `_input_loader3` (`_loaders.py:703-727`). -/
def loadSolutionInput3 : Table :=
  [("start", .attr "start"), ("stop", .attr "stop"),
   ("taylor_stop_angle", .attr "taylor_stop_angle"), ("max_steps", .attr "max_steps"),
   ("num_angles", .attr "num_angles"), ("relative_tolerance", .attr "relative_tolerance"),
   ("absolute_tolerance", .attr "absolute_tolerance"),
   ("split_method", .const (.text "v_θ_deriv")), ("γ", .βnum),
   ("v_rin_on_c_s", .attr "v_rin_on_c_s"), ("v_a_on_c_s", .attr "v_a_on_c_s"),
   ("c_s_on_v_k", .attr "c_s_on_v_k"), ("η_O", .attr "η_O"), ("η_H", .attr "η_H"),
   ("η_A", .attr "η_A"), ("jump_before_sonic", .dataOpt "jump_before_sonic"),
   ("η_derivs", .attr "η_derivs"), ("use_E_r", .const .none)]

/-- `_input_loader4` (`_loaders.py:731-759`). -/
def loadSolutionInput4 : Table :=
  [("start", .attr "start"), ("stop", .attr "stop"),
   ("taylor_stop_angle", .attr "taylor_stop_angle"), ("max_steps", .attr "max_steps"),
   ("num_angles", .attr "num_angles"), ("relative_tolerance", .attr "relative_tolerance"),
   ("absolute_tolerance", .attr "absolute_tolerance"),
   ("split_method", .const (.text "v_θ_deriv")), ("γ", .attr "γ"),
   ("v_rin_on_c_s", .attr "v_rin_on_c_s"), ("v_a_on_c_s", .attr "v_a_on_c_s"),
   ("c_s_on_v_k", .attr "c_s_on_v_k"), ("η_O", .attr "η_O"), ("η_H", .attr "η_H"),
   ("η_A", .attr "η_A"), ("jump_before_sonic", .dataOpt "jump_before_sonic"),
   ("η_derivs", .attr "η_derivs"), ("nwalkers", .const .none), ("iterations", .const .none),
   ("threads", .const .none), ("target_velocity", .const .none), ("use_E_r", .const .none)]

/-- `_input_loader5` (`_loaders.py:763-790`). -/
def loadSolutionInput5 : Table :=
  [("start", .attr "start"), ("stop", .attr "stop"),
   ("taylor_stop_angle", .attr "taylor_stop_angle"), ("max_steps", .attr "max_steps"),
   ("num_angles", .attr "num_angles"), ("relative_tolerance", .attr "relative_tolerance"),
   ("absolute_tolerance", .attr "absolute_tolerance"),
   ("split_method", .const (.text "v_θ_deriv")), ("γ", .attr "γ"),
   ("nwalkers", .attr "nwalkers"), ("iterations", .attr "iterations"),
   ("threads", .attr "threads"), ("v_rin_on_c_s", .attr "v_rin_on_c_s"),
   ("v_a_on_c_s", .attr "v_a_on_c_s"), ("c_s_on_v_k", .attr "c_s_on_v_k"),
   ("η_O", .attr "η_O"), ("η_H", .attr "η_H"), ("η_A", .attr "η_A"),
   ("jump_before_sonic", .dataOpt "jump_before_sonic"), ("η_derivs", .attr "η_derivs"),
   ("use_E_r", .const .none)]

/-- `_input_loader6` (`_loaders.py:794-822`). -/
def loadSolutionInput6 : Table :=
  [("start", .attr "start"), ("stop", .attr "stop"),
   ("taylor_stop_angle", .attr "taylor_stop_angle"), ("max_steps", .attr "max_steps"),
   ("num_angles", .attr "num_angles"), ("relative_tolerance", .attr "relative_tolerance"),
   ("absolute_tolerance", .attr "absolute_tolerance"), ("γ", .attr "γ"),
   ("nwalkers", .attr "nwalkers"), ("iterations", .attr "iterations"),
   ("threads", .attr "threads"), ("target_velocity", .attr "target_velocity"),
   ("split_method", .const (.text "v_θ_deriv")), ("v_rin_on_c_s", .attr "v_rin_on_c_s"),
   ("v_a_on_c_s", .attr "v_a_on_c_s"), ("c_s_on_v_k", .attr "c_s_on_v_k"),
   ("η_O", .attr "η_O"), ("η_H", .attr "η_H"), ("η_A", .attr "η_A"),
   ("jump_before_sonic", .dataOpt "jump_before_sonic"), ("η_derivs", .attr "η_derivs"),
   ("use_E_r", .const .none)]

/-- `_input_loader7` (`_loaders.py:826-854`). -/
def loadSolutionInput7 : Table :=
  [("start", .attr "start"), ("stop", .attr "stop"),
   ("taylor_stop_angle", .attr "taylor_stop_angle"), ("max_steps", .attr "max_steps"),
   ("num_angles", .attr "num_angles"), ("relative_tolerance", .attr "relative_tolerance"),
   ("absolute_tolerance", .attr "absolute_tolerance"), ("γ", .attr "γ"),
   ("nwalkers", .attr "nwalkers"), ("iterations", .attr "iterations"),
   ("threads", .attr "threads"), ("target_velocity", .attr "target_velocity"),
   ("split_method", .attr "split_method"), ("v_rin_on_c_s", .attr "v_rin_on_c_s"),
   ("v_a_on_c_s", .attr "v_a_on_c_s"), ("c_s_on_v_k", .attr "c_s_on_v_k"),
   ("η_O", .attr "η_O"), ("η_H", .attr "η_H"), ("η_A", .attr "η_A"),
   ("jump_before_sonic", .dataOpt "jump_before_sonic"), ("η_derivs", .attr "η_derivs"),
   ("use_E_r", .const .none)]

/-- `_input_loader8` (`_loaders.py:858-887`). -/
def loadSolutionInput8 : Table :=
  [("start", .attr "start"), ("stop", .attr "stop"),
   ("taylor_stop_angle", .attr "taylor_stop_angle"), ("max_steps", .attr "max_steps"),
   ("num_angles", .attr "num_angles"), ("relative_tolerance", .attr "relative_tolerance"),
   ("absolute_tolerance", .attr "absolute_tolerance"), ("γ", .attr "γ"),
   ("nwalkers", .attr "nwalkers"), ("iterations", .attr "iterations"),
   ("threads", .attr "threads"), ("target_velocity", .attr "target_velocity"),
   ("split_method", .attr "split_method"), ("v_rin_on_c_s", .attr "v_rin_on_c_s"),
   ("v_a_on_c_s", .attr "v_a_on_c_s"), ("c_s_on_v_k", .attr "c_s_on_v_k"),
   ("η_O", .attr "η_O"), ("η_H", .attr "η_H"), ("η_A", .attr "η_A"),
   ("jump_before_sonic", .dataOpt "jump_before_sonic"), ("η_derivs", .attr "η_derivs"),
   ("use_taylor_jump", .attr "use_taylor_jump"), ("use_E_r", .const .none)]

/-- `_input_loader9` (`_loaders.py:891-921`). -/
def loadSolutionInput9 : Table :=
  [("start", .attr "start"), ("stop", .attr "stop"),
   ("taylor_stop_angle", .attr "taylor_stop_angle"), ("max_steps", .attr "max_steps"),
   ("num_angles", .attr "num_angles"), ("relative_tolerance", .attr "relative_tolerance"),
   ("absolute_tolerance", .attr "absolute_tolerance"), ("γ", .attr "γ"),
   ("nwalkers", .attr "nwalkers"), ("iterations", .attr "iterations"),
   ("threads", .attr "threads"), ("target_velocity", .attr "target_velocity"),
   ("split_method", .attr "split_method"), ("v_rin_on_c_s", .attr "v_rin_on_c_s"),
   ("v_a_on_c_s", .attr "v_a_on_c_s"), ("c_s_on_v_k", .attr "c_s_on_v_k"),
   ("η_O", .attr "η_O"), ("η_H", .attr "η_H"), ("η_A", .attr "η_A"),
   ("jump_before_sonic", .dataOpt "jump_before_sonic"), ("η_derivs", .attr "η_derivs"),
   ("use_taylor_jump", .attr "use_taylor_jump"), ("mcmc_vars", .member "mcmc_vars"),
   ("use_E_r", .const .none)]

/-- `_input_loader10` (`_loaders.py:925-960`). -/
def loadSolutionInput10 : Table :=
  [("start", .attr "start"), ("stop", .attr "stop"),
   ("taylor_stop_angle", .attr "taylor_stop_angle"), ("max_steps", .attr "max_steps"),
   ("num_angles", .attr "num_angles"), ("relative_tolerance", .attr "relative_tolerance"),
   ("absolute_tolerance", .attr "absolute_tolerance"), ("γ", .attr "γ"),
   ("nwalkers", .attr "nwalkers"), ("iterations", .attr "iterations"),
   ("threads", .attr "threads"), ("target_velocity", .attr "target_velocity"),
   ("split_method", .attr "split_method"), ("v_rin_on_c_s", .attr "v_rin_on_c_s"),
   ("v_a_on_c_s", .attr "v_a_on_c_s"), ("c_s_on_v_k", .attr "c_s_on_v_k"),
   ("η_O", .attr "η_O"), ("η_H", .attr "η_H"), ("η_A", .attr "η_A"),
   ("jump_before_sonic", .dataOpt "jump_before_sonic"), ("η_derivs", .attr "η_derivs"),
   ("use_taylor_jump", .attr "use_taylor_jump"), ("mcmc_vars", .member "mcmc_vars"),
   ("v_θ_sonic_crit", .dataOpt "v_θ_sonic_crit"), ("use_E_r", .const .none)]

/-- `_input_loader11` (`_loaders.py:964-1004`). -/
def loadSolutionInput11 : Table :=
  [("start", .attr "start"), ("stop", .attr "stop"),
   ("taylor_stop_angle", .attr "taylor_stop_angle"), ("max_steps", .attr "max_steps"),
   ("num_angles", .attr "num_angles"), ("relative_tolerance", .attr "relative_tolerance"),
   ("absolute_tolerance", .attr "absolute_tolerance"), ("γ", .attr "γ"),
   ("nwalkers", .attr "nwalkers"), ("iterations", .attr "iterations"),
   ("threads", .attr "threads"), ("target_velocity", .attr "target_velocity"),
   ("split_method", .attr "split_method"), ("v_rin_on_c_s", .attr "v_rin_on_c_s"),
   ("v_a_on_c_s", .attr "v_a_on_c_s"), ("c_s_on_v_k", .attr "c_s_on_v_k"),
   ("η_O", .attr "η_O"), ("η_H", .attr "η_H"), ("η_A", .attr "η_A"),
   ("jump_before_sonic", .dataOpt "jump_before_sonic"), ("η_derivs", .attr "η_derivs"),
   ("use_taylor_jump", .attr "use_taylor_jump"), ("mcmc_vars", .member "mcmc_vars"),
   ("v_θ_sonic_crit", .dataOpt "v_θ_sonic_crit"), ("after_sonic", .dataOpt "after_sonic"),
   ("use_E_r", .const .none)]

/-- `_input_loader12` (`_loaders.py:1008-1054`). -/
def loadSolutionInput12 : Table :=
  [("start", .attr "start"), ("stop", .attr "stop"),
   ("taylor_stop_angle", .attr "taylor_stop_angle"), ("max_steps", .attr "max_steps"),
   ("num_angles", .attr "num_angles"), ("relative_tolerance", .attr "relative_tolerance"),
   ("absolute_tolerance", .attr "absolute_tolerance"), ("γ", .attr "γ"),
   ("nwalkers", .attr "nwalkers"), ("iterations", .attr "iterations"),
   ("threads", .attr "threads"), ("target_velocity", .attr "target_velocity"),
   ("split_method", .attr "split_method"), ("v_rin_on_c_s", .attr "v_rin_on_c_s"),
   ("v_a_on_c_s", .attr "v_a_on_c_s"), ("c_s_on_v_k", .attr "c_s_on_v_k"),
   ("η_O", .attr "η_O"), ("η_H", .attr "η_H"), ("η_A", .attr "η_A"),
   ("jump_before_sonic", .dataOpt "jump_before_sonic"), ("η_derivs", .attr "η_derivs"),
   ("use_taylor_jump", .attr "use_taylor_jump"), ("mcmc_vars", .member "mcmc_vars"),
   ("v_θ_sonic_crit", .dataOpt "v_θ_sonic_crit"), ("after_sonic", .dataOpt "after_sonic"),
   ("sonic_interp_size", .dataOpt "sonic_interp_size"), ("interp_range", .attr "interp_range"),
   ("use_E_r", .const .none)]

/-- `_input_loader13` (`_loaders.py:1058-1109`). -/
def loadSolutionInput13 : Table :=
  [("start", .attr "start"), ("stop", .attr "stop"),
   ("taylor_stop_angle", .attr "taylor_stop_angle"), ("max_steps", .attr "max_steps"),
   ("num_angles", .attr "num_angles"), ("relative_tolerance", .attr "relative_tolerance"),
   ("absolute_tolerance", .attr "absolute_tolerance"), ("γ", .attr "γ"),
   ("nwalkers", .attr "nwalkers"), ("iterations", .attr "iterations"),
   ("threads", .attr "threads"), ("target_velocity", .attr "target_velocity"),
   ("split_method", .attr "split_method"), ("v_rin_on_c_s", .attr "v_rin_on_c_s"),
   ("v_a_on_c_s", .attr "v_a_on_c_s"), ("c_s_on_v_k", .attr "c_s_on_v_k"),
   ("η_O", .attr "η_O"), ("η_H", .attr "η_H"), ("η_A", .attr "η_A"),
   ("jump_before_sonic", .dataOpt "jump_before_sonic"), ("η_derivs", .attr "η_derivs"),
   ("use_taylor_jump", .attr "use_taylor_jump"), ("mcmc_vars", .member "mcmc_vars"),
   ("v_θ_sonic_crit", .dataOpt "v_θ_sonic_crit"), ("after_sonic", .dataOpt "after_sonic"),
   ("sonic_interp_size", .dataOpt "sonic_interp_size"),
   ("interp_range", .loaded "interp_range"), ("interp_slice", .member "interp_slice"),
   ("use_E_r", .const .none)]

/-- `_input_loader14` (`_loaders.py:1113-1164`). -/
def loadSolutionInput14 : Table :=
  [("start", .attr "start"), ("stop", .attr "stop"),
   ("taylor_stop_angle", .attr "taylor_stop_angle"), ("max_steps", .attr "max_steps"),
   ("num_angles", .attr "num_angles"), ("relative_tolerance", .attr "relative_tolerance"),
   ("absolute_tolerance", .attr "absolute_tolerance"), ("γ", .attr "γ"),
   ("nwalkers", .attr "nwalkers"), ("iterations", .attr "iterations"),
   ("threads", .attr "threads"), ("target_velocity", .attr "target_velocity"),
   ("split_method", .attr "split_method"), ("v_rin_on_c_s", .attr "v_rin_on_c_s"),
   ("v_a_on_c_s", .attr "v_a_on_c_s"), ("c_s_on_v_k", .attr "c_s_on_v_k"),
   ("η_O", .attr "η_O"), ("η_H", .attr "η_H"), ("η_A", .attr "η_A"),
   ("jump_before_sonic", .dataOpt "jump_before_sonic"), ("η_derivs", .attr "η_derivs"),
   ("use_taylor_jump", .attr "use_taylor_jump"), ("mcmc_vars", .member "mcmc_vars"),
   ("v_θ_sonic_crit", .dataOpt "v_θ_sonic_crit"), ("after_sonic", .dataOpt "after_sonic"),
   ("sonic_interp_size", .dataOpt "sonic_interp_size"),
   ("interp_range", .loaded "interp_range"), ("interp_slice", .member "interp_slice"),
   ("use_E_r", .attr "use_E_r")]

/-- `_run_loader` (`_loaders.py:1168-1178`). -/
def loadRun1 : Table :=
  [("config_input", .member "config_input"), ("config_filename", .member "config_filename"),
   ("time", .member "time"), ("final_solution", .member "final_solution"),
   ("solutions", .member "solutions"), ("disc_solver_version", .const .none),
   ("float_type", .const .none), ("sonic_method", .const (.text "unknown"))]

/-- `_run_loader2` (`_loaders.py:1182-1192`). -/
def loadRun2 : Table :=
  [("config_input", .member "config_input"), ("config_filename", .member "config_filename"),
   ("time", .member "time"), ("final_solution", .member "final_solution"),
   ("solutions", .member "solutions"), ("disc_solver_version", .member "disc_solver_version"),
   ("float_type", .const .none), ("sonic_method", .const (.text "unknown"))]

/-- `_run_loader3` (`_loaders.py:1196-1206`). -/
def loadRun3 : Table :=
  [("config_input", .member "config_input"), ("config_filename", .member "config_filename"),
   ("time", .member "time"), ("final_solution", .member "final_solution"),
   ("solutions", .member "solutions"), ("disc_solver_version", .member "disc_solver_version"),
   ("float_type", .member "float_type"), ("sonic_method", .const (.text "unknown"))]

/-- `_run_loader4` (`_loaders.py:1210-1220`). -/
def loadRun4 : Table :=
  [("config_input", .member "config_input"), ("config_filename", .member "config_filename"),
   ("time", .member "time"), ("final_solution", .member "final_solution"),
   ("solutions", .member "solutions"), ("disc_solver_version", .member "disc_solver_version"),
   ("float_type", .member "float_type"), ("sonic_method", .member "sonic_method")]

/-- `_run_loader5` (`_loaders.py:1224-1252`). -/
def loadRun5 : Table :=
  [("config_input", .member "config_input"), ("config_filename", .member "config_filename"),
   ("time", .member "time"), ("final_solution", .member "final_solution"),
   ("solutions", .member "solutions"), ("disc_solver_version", .member "disc_solver_version"),
   ("float_type", .member "float_type"), ("sonic_method", .member "sonic_method"),
   ("use_E_r", .member "use_E_r")]

/-- `_run_loader6` (`_loaders.py:1256-1289`). -/
def loadRun6 : Table :=
  [("config_input", .member "config_input"), ("config_filename", .member "config_filename"),
   ("time", .member "time"), ("final_solution", .member "final_solution"),
   ("solutions", .member "solutions"), ("disc_solver_version", .member "disc_solver_version"),
   ("float_type", .member "float_type"), ("sonic_method", .member "sonic_method"),
   ("use_E_r", .member "use_E_r"), ("is_post_shock_only", .attr "is_post_shock_only"),
   ("based_on_solution_filename", .member "based_on_solution_filename"),
   ("based_on_solution_solution_name", .member "based_on_solution_solution_name")]

/-- `_jacobian_data_loader` (`_loaders.py:1303-1309`). -/
def loadJacobianData1 : Table :=
  [("derivs", .data "derivs"), ("params", .data "params"), ("angles", .data "angles"),
   ("jacobians", .data "jacobians")]

/-- `_mcmc_vars_loader` (`_loaders.py:1318-1323`). -/
def loadMCMCVars1 : Table :=
  [("with_v_r", .member "with_v_r"), ("with_v_a", .member "with_v_a"),
   ("with_v_k", .member "with_v_k")]

/-- The registered loaders that call a constructor (`ds_registry.loader`). -/
def loaderTable : String → ℕ → Option (Cls × Table)
  | "slice", 1 => some (.slice, loadslice1)
  | "InternalData", 1 => some (.InternalData, loadInternalData1)
  | "InternalData", 2 => some (.InternalData, loadInternalData2)
  | "InternalData", 3 => some (.InternalData, loadInternalData3)
  | "InitialConditions", 1 => some (.InitialConditions, loadInitialConditions1)
  | "InitialConditions", 2 => some (.InitialConditions, loadInitialConditions2)
  | "InitialConditions", 3 => some (.InitialConditions, loadInitialConditions3)
  | "Solution", 1 => some (.Solution, loadSolution1)
  | "Solution", 2 => some (.Solution, loadSolution2)
  | "Solution", 3 => some (.Solution, loadSolution3)
  | "Solution", 4 => some (.Solution, loadSolution4)
  | "ConfigInput", 1 => some (.ConfigInput, loadConfigInput1)
  | "ConfigInput", 2 => some (.ConfigInput, loadConfigInput2)
  | "ConfigInput", 3 => some (.ConfigInput, loadConfigInput3)
  | "ConfigInput", 4 => some (.ConfigInput, loadConfigInput4)
  | "ConfigInput", 5 => some (.ConfigInput, loadConfigInput5)
  | "ConfigInput", 6 => some (.ConfigInput, loadConfigInput6)
  | "ConfigInput", 7 => some (.ConfigInput, loadConfigInput7)
  | "ConfigInput", 8 => some (.ConfigInput, loadConfigInput8)
  | "ConfigInput", 9 => some (.ConfigInput, loadConfigInput9)
  | "ConfigInput", 10 => some (.ConfigInput, loadConfigInput10)
  | "ConfigInput", 11 => some (.ConfigInput, loadConfigInput11)
  | "ConfigInput", 12 => some (.ConfigInput, loadConfigInput12)
  | "ConfigInput", 13 => some (.ConfigInput, loadConfigInput13)
  | "ConfigInput", 14 => some (.ConfigInput, loadConfigInput14)
  | "SolutionInput", 1 => some (.SolutionInput, loadSolutionInput1)
  | "SolutionInput", 2 => some (.SolutionInput, loadSolutionInput2)
  | "SolutionInput", 3 => some (.SolutionInput, loadSolutionInput3)
  | "SolutionInput", 4 => some (.SolutionInput, loadSolutionInput4)
  | "SolutionInput", 5 => some (.SolutionInput, loadSolutionInput5)
  | "SolutionInput", 6 => some (.SolutionInput, loadSolutionInput6)
  | "SolutionInput", 7 => some (.SolutionInput, loadSolutionInput7)
  | "SolutionInput", 8 => some (.SolutionInput, loadSolutionInput8)
  | "SolutionInput", 9 => some (.SolutionInput, loadSolutionInput9)
  | "SolutionInput", 10 => some (.SolutionInput, loadSolutionInput10)
  | "SolutionInput", 11 => some (.SolutionInput, loadSolutionInput11)
  | "SolutionInput", 12 => some (.SolutionInput, loadSolutionInput12)
  | "SolutionInput", 13 => some (.SolutionInput, loadSolutionInput13)
  | "SolutionInput", 14 => some (.SolutionInput, loadSolutionInput14)
  | "Run", 1 => some (.Run, loadRun1)
  | "Run", 2 => some (.Run, loadRun2)
  | "Run", 3 => some (.Run, loadRun3)
  | "Run", 4 => some (.Run, loadRun4)
  | "Run", 5 => some (.Run, loadRun5)
  | "Run", 6 => some (.Run, loadRun6)
  | "JacobianData", 1 => some (.JacobianData, loadJacobianData1)
  | "MCMCVars", 1 => some (.MCMCVars, loadMCMCVars1)
  | _, _ => none

/-- The Python functions used: `Fraction(text)`, `str(Fraction)`, `str` of an object, and
the converters of text in `_containers.py:21-47`, which are modelled in `Inputs`. -/
structure Env where
  fraction : String → Except PyErr ℚ
  showFraction : ℚ → String
  str : Obj → String
  mcmcOfText : String → Obj
  sliceOfText : String → Except PyErr Obj

/-- `x["data"]`: a `DatasetContainer` gives its array.  Problems and solutions, which have
items of their own, do not occur in these places. -/
def dataOf : Obj → Except PyErr Obj
  | .dset a => .ok (.arr a)
  | _ => .error .TypeError

/-- `ensure_fully_loaded` (`_utils.py:28-35`). -/
def ensureFullyLoaded : Obj → Obj
  | .dset a => .arr a
  | o => o

/-- `5/4 - β`. -/
noncomputable def γOfβ : Obj → Except PyErr Obj
  | .num .nan => .ok (.num .nan)
  | .num (.val x) => .ok (.num (.val (5 / 4 - x)))
  | .arr ⟨[], [.nan]⟩ => .ok (.arr ⟨[], [.nan]⟩)
  | .arr ⟨[], [.val x]⟩ => .ok (.arr ⟨[], [.val (5 / 4 - x)]⟩)
  | _ => .error .TypeError

/-- `_str_β_to_γ` (`_utils.py:14-18`) of text. -/
def γTextOfβ (E : Env) : Obj → Except PyErr Obj
  | .text s =>
    match E.fraction s with
    | .error e => .error e
    | .ok q => .ok (.text (E.showFraction (5 / 4 - q)))
  | _ => .error .TypeError

/-- `group[k]` and `group.attrs[k]`. -/
def getKey {α : Type} (d : List (String × α)) (k : String) : Except PyErr α :=
  match d.lookup k with
  | some v => .ok v
  | none => .error .KeyError

/-- `None if x is None else x["data"]`. -/
def dataOptOf : Obj → Except PyErr Obj
  | .none => .ok .none
  | o => dataOf o

/-- One argument. -/
noncomputable def evalSrc (E : Env) (attrs members : List (String × Obj)) :
    Src → Except PyErr Obj
  | .attr k => getKey attrs k
  | .member k => getKey members k
  | .data k => (getKey members k).bind dataOf
  | .dataOpt k => (getKey members k).bind dataOptOf
  | .loaded k => (getKey members k).map ensureFullyLoaded
  | .const o => .ok o
  | .βnum => (getKey attrs "β").bind γOfβ
  | .βtext => (getKey attrs "β").bind (γTextOfβ E)

/-! ## Constructors -/

/-- A slice with two ends. -/
def mkSliceObj (a b : ℝ) : Obj :=
  .obj .slice [("start", .num (.val a)), ("stop", .num (.val b)), ("step", .none)]

/-- An empty list as default. -/
def emptyArr : Obj := .arr ⟨[0], []⟩

/-- `JacobianData()`. -/
def emptyJacobian : Obj := .obj .JacobianData
  [("jacobians", emptyArr), ("derivs", emptyArr), ("params", emptyArr), ("angles", emptyArr)]

/-- The fields of the classes with their defaults (`_containers.py:76-88, 96-127, 250-278,
386-389, 438-448, 605-616, 665-668, 717-719`), in the order of the definitions.  The constructor of
`InitialConditions` is `constructInitial` below; that of `slice` takes its three values. -/
def classFields : Cls → List (String × Option Obj)
  | .Solution =>
    [("solution_input", none), ("angles", none), ("solution", none), ("flag", none),
     ("coordinate_system", none), ("internal_data", none), ("initial_conditions", none),
     ("t_roots", none), ("y_roots", none), ("sonic_point", none),
     ("sonic_point_values", none), ("derivatives", some .none),
     ("is_post_shock_only", some (.bool false))]
  | .ConfigInput =>
    [("start", none), ("stop", none), ("taylor_stop_angle", none), ("max_steps", none),
     ("num_angles", none), ("label", none), ("relative_tolerance", none),
     ("absolute_tolerance", none), ("γ", none), ("nwalkers", none), ("iterations", none),
     ("threads", none), ("target_velocity", none), ("split_method", none),
     ("v_rin_on_c_s", none), ("v_a_on_c_s", none), ("c_s_on_v_k", none), ("η_O", none),
     ("η_H", none), ("η_A", none), ("η_derivs", some (.text "True")),
     ("jump_before_sonic", some .none), ("use_taylor_jump", some (.text "True")),
     ("mcmc_vars", some .none), ("v_θ_sonic_crit", some .none), ("after_sonic", some .none),
     ("sonic_interp_size", some .none), ("interp_range", some (.text "10")),
     ("interp_slice", some (.text "-1000,-100")), ("use_E_r", some (.text "False"))]
  | .SolutionInput =>
    [("start", none), ("stop", none), ("taylor_stop_angle", none), ("max_steps", none),
     ("num_angles", none), ("relative_tolerance", none), ("absolute_tolerance", none),
     ("γ", none), ("nwalkers", none), ("iterations", none), ("threads", none),
     ("target_velocity", none), ("split_method", none), ("v_rin_on_c_s", none),
     ("v_a_on_c_s", none), ("c_s_on_v_k", none), ("η_O", none), ("η_H", none), ("η_A", none),
     ("η_derivs", some (.bool true)), ("jump_before_sonic", some .none),
     ("use_taylor_jump", some (.bool true)), ("mcmc_vars", some .none),
     ("v_θ_sonic_crit", some .none), ("after_sonic", some .none),
     ("sonic_interp_size", some .none), ("interp_range", some (.num (.val 10))),
     ("interp_slice", some (mkSliceObj (-1000) (-100))), ("use_E_r", some (.bool false))]
  | .JacobianData =>
    [("jacobians", some emptyArr), ("derivs", some emptyArr), ("params", some emptyArr),
     ("angles", some emptyArr)]
  | .InternalData =>
    [("derivs", some emptyArr), ("params", some emptyArr), ("angles", some emptyArr),
     ("jacobian_data", some emptyJacobian), ("v_r_normal", some emptyArr),
     ("v_φ_normal", some emptyArr), ("ρ_normal", some emptyArr),
     ("v_r_taylor", some emptyArr), ("v_φ_taylor", some emptyArr),
     ("ρ_taylor", some emptyArr), ("problems", some (.problems []))]
  | .Run =>
    [("config_input", none), ("config_filename", none), ("disc_solver_version", none),
     ("float_type", none), ("sonic_method", none), ("time", some .none),
     ("use_E_r", some (.bool false)), ("final_solution", some .delayed),
     ("solutions", some (.solutions [])), ("is_post_shock_only", some (.bool false)),
     ("based_on_solution_filename", some .none),
     ("based_on_solution_solution_name", some .none)]
  | .MCMCVars => [("with_v_r", none), ("with_v_a", none), ("with_v_k", none)]
  | .slice => [("start", none), ("stop", none), ("step", none)]
  | .InitialConditions =>
    [("norm_kepler_sq", none), ("η_O", some .none), ("η_A", some .none), ("η_H", some .none),
     ("γ", none), ("init_con", none), ("angles", none), ("a_0", none)]

/-- `replace_empty_string` (`_containers.py:60-66`). -/
def replaceEmpty : Obj → Obj
  | .text s => if s = "" then .text "None" else .text s
  | o => o

/-- `mcmc_vars_str_to_obj` (`_containers.py:21-34`). -/
def toMcmcVars (E : Env) : Obj → Except PyErr Obj
  | .none => .ok .none
  | .obj .MCMCVars l => .ok (.obj .MCMCVars l)
  | .text s => if s = "None" then .ok .none else .ok (E.mcmcOfText s)
  | _ => .error .AttributeError

/-- `str_to_slice` (`_containers.py:37-47`). -/
def toSlice (E : Env) : Obj → Except PyErr Obj
  | .none => .ok .none
  | .obj .slice l => .ok (.obj .slice l)
  | .text s => if s = "None" then .ok .none else E.sliceOfText s
  | _ => .error .AttributeError

/-- The fields with `replace_empty_string` as converter. -/
def emptyConverted : List String :=
  ["jump_before_sonic", "mcmc_vars", "v_θ_sonic_crit", "after_sonic", "sonic_interp_size",
   "interp_range", "interp_slice"]

/-- The converters. -/
def convert (E : Env) (c : Cls) (k : String) (o : Obj) : Except PyErr Obj :=
  match c with
  | .ConfigInput => if k ∈ emptyConverted then .ok (replaceEmpty o) else .ok o
  | .SolutionInput =>
    if k = "mcmc_vars" then toMcmcVars E o
    else if k = "interp_slice" then toSlice E o
    else .ok o
  | _ => .ok o

/-- The value of one field: the argument or the default, converted. -/
def fieldValue (E : Env) (c : Cls) (kwargs : List (String × Obj)) (f : String × Option Obj) :
    Except PyErr Obj :=
  match kwargs.lookup f.1, f.2 with
  | some v, _ => convert E c f.1 v
  | none, some d => convert E c f.1 d
  | none, none => .error .TypeError

/-- `!=` of floating point numbers. -/
def Fl.ne : Fl → Fl → Prop
  | .val x, .val y => x ≠ y
  | _, _ => True

/-- A number, as it is compared and stored into an array. -/
def asFl : Obj → Option Fl
  | .num x => some x
  | .arr ⟨[], [x]⟩ => some x
  | _ => none

open Classical in
/-- One of `η_O`, `η_A`, `η_H` against the initial conditions (`_containers.py:681-694`):
the value for the field. -/
noncomputable def checkη (init_con : NArr) (i : ℕ) (η : Obj) : Except PyErr Obj :=
  match init_con.data[i]? with
  | none => .error .IndexError
  | some v =>
    match η with
    | .none => .ok (.num v)
    | η =>
      match asFl η with
      | none => .error .TypeError
      | some x => if x.ne v then .error .RuntimeError else .ok η

/-- The same for storing into an array, where `None` becomes `nan`. -/
def asElement : Obj → Option Fl
  | .none => some .nan
  | o => asFl o

/-- The array of eleven values made of eight (`_containers.py:674-679`). -/
def elevenOf (init_con : NArr) (η_O η_A η_H : Obj) : Except PyErr NArr :=
  match asElement η_O, asElement η_A, asElement η_H with
  | some a, some b, some c => .ok ⟨[11], init_con.data ++ [a, b, c]⟩
  | _, _, _ => .error .TypeError

/-- The constructor of `InitialConditions` (`_containers.py:665-698`). -/
noncomputable def constructInitial (v : String → Obj) : Except PyErr Obj :=
  match v "init_con" with
  | .arr a =>
    if a.data.length = 8 then
      match elevenOf a (v "η_O") (v "η_A") (v "η_H") with
      | .error e => .error e
      | .ok b => .ok (.obj .InitialConditions
          [("norm_kepler_sq", v "norm_kepler_sq"), ("η_O", v "η_O"), ("η_A", v "η_A"),
           ("η_H", v "η_H"), ("γ", v "γ"), ("init_con", .arr b), ("angles", v "angles"),
           ("a_0", v "a_0")])
    else
      match checkη a 8 (v "η_O"), checkη a 9 (v "η_A"), checkη a 10 (v "η_H") with
      | .ok x, .ok y, .ok z => .ok (.obj .InitialConditions
          [("norm_kepler_sq", v "norm_kepler_sq"), ("η_O", x), ("η_A", y), ("η_H", z),
           ("γ", v "γ"), ("init_con", .arr a), ("angles", v "angles"), ("a_0", v "a_0")])
      | .error e, _, _ => .error e
      | .ok _, .error e, _ => .error e
      | .ok _, .ok _, .error e => .error e
  | _ => .error .TypeError

/-- The object made from the values of the fields. -/
noncomputable def finish (c : Cls) (values : List (String × Obj)) : Except PyErr Obj :=
  if c = .InitialConditions then constructInitial fun k => (values.lookup k).getD .none
  else .ok (.obj c values)

/-- Calling a constructor with keyword arguments: unknown and missing arguments are
refused. -/
noncomputable def construct (E : Env) (c : Cls) (kwargs : List (String × Obj)) :
    Except PyErr Obj :=
  if kwargs.all fun a => (classFields c).any fun f => f.1 == a.1 then
    match collect ((classFields c).map fun f => (f.1, fieldValue E c kwargs f)) with
    | .error e => .error e
    | .ok values => finish c values
  else .error .TypeError

/-! ## Runs -/

/-- Setting a field of an object. -/
def setField (fields : List (String × Obj)) (k : String) (v : Obj) : List (String × Obj) :=
  fields.map fun f => if f.1 = k then (f.1, v) else f

/-- `if x.use_E_r is None: x.use_E_r = v`. -/
def fillUse (v : Obj) : Obj → Except PyErr Obj
  | .obj c fields =>
    match fields.lookup "use_E_r" with
    | some .none => .ok (.obj c (setField fields "use_E_r" v))
    | some _ => .ok (.obj c fields)
    | none => .error .AttributeError
  | _ => .error .AttributeError

/-- The same for the input of a solution. -/
def fillSolution (v : Obj) : Obj → Except PyErr Obj
  | .obj c fields =>
    match fields.lookup "solution_input" with
    | some o =>
      match fillUse v o with
      | .ok o' => .ok (.obj c (setField fields "solution_input" o'))
      | .error e => .error e
    | none => .error .AttributeError
  | _ => .error .AttributeError

/-- The same for a final solution, which may be `None`. -/
def fillFinal (v : Obj) : Obj → Except PyErr Obj
  | .none => .ok .none
  | o => fillSolution v o

/-- The same for all stored solutions. -/
def fillSolutions (v : Obj) : Obj → Except PyErr Obj
  | .solutions d =>
    match collect (d.map fun e => (e.1, fillSolution v e.2)) with
    | .ok d' => .ok (.solutions d')
    | .error e => .error e
  | _ => .error .AttributeError

/-- Replacing the value of one argument. -/
def update (kwargs : List (String × Obj)) (k : String) (f : Obj → Except PyErr Obj) :
    Except PyErr (List (String × Obj)) :=
  collect (kwargs.map fun a => (a.1, if a.1 = k then f a.2 else .ok a.2))

/-- What `_run_loader5` and `_run_loader6` do before the call (`_loaders.py:1225-1242,
1260-1277`). -/
def fillRun (E : Env) (kwargs : List (String × Obj)) : Except PyErr (List (String × Obj)) :=
  match kwargs.lookup "use_E_r" with
  | none => .error .KeyError
  | some use_E_r =>
    (update kwargs "config_input" (fillUse (.text (E.str use_E_r)))).bind fun a =>
    (update a "solutions" (fillSolutions use_E_r)).bind fun b =>
    update b "final_solution" (fillFinal use_E_r)

/-- The changes of the arguments before the constructor is called. -/
def prepare (E : Env) (label : String) (version : ℕ) (kwargs : List (String × Obj)) :
    Except PyErr (List (String × Obj)) :=
  if label = "Run" ∧ (version = 5 ∨ version = 6) then fillRun E kwargs else .ok kwargs

/-- The members of a group in the order of their names. -/
def byName {α : Type} (l : List (String × α)) : List (String × α) :=
  l.mergeSort fun a b => decide (a.1 ≤ b.1)

/-- `[s.decode("utf8") for s in item["data"]]`. -/
def messages : Obj → Except PyErr (List String)
  | .strs l => .ok l
  | _ => .error .TypeError

/-- The loader for a label and version, given the attributes and the loaded members.  The
loaders of `Problems` and `Solutions` are at `_loaders.py:1292-1299, 1312-1314`.  A label and version without loader is refused; which exception `h5preserve`
raises is an assumption. -/
noncomputable def loader (E : Env) (label : String) (version : ℕ)
    (attrs members : List (String × Obj)) : Except PyErr Obj :=
  match loaderTable label version with
  | some (c, table) =>
    (collect (table.map fun a => (a.1, evalSrc E attrs members a.2))).bind fun kwargs =>
    (prepare E label version kwargs).bind fun kwargs => construct E c kwargs
  | none =>
    if label = "Problems" ∧ version = 1 then
      (collect ((byName members).map fun e => (e.1, messages e.2))).map .problems
    else if label = "Solutions" ∧ version = 1 then .ok (.solutions (byName members))
    else .error .RuntimeError

mutual
/-- Reading an object. -/
noncomputable def read (E : Env) : Node → Except PyErr Obj
  | .absent => .error .KeyError
  | .none => .ok .none
  | .text s => .ok (.text s)
  | .bool b => .ok (.bool b)
  | .num x => .ok (.num x)
  | .data a => .ok (.dset a)
  | .strs l => .ok (.strs l)
  | .group label version attrs members =>
    match readMembers E members with
    | .error e => .error e
    | .ok m => loader E label version attrs m
/-- Reading the members of a group; what was never written is not there. -/
noncomputable def readMembers (E : Env) : List (String × Node) →
    Except PyErr (List (String × Obj))
  | [] => .ok []
  | (k, n) :: l =>
    match n with
    | .absent => readMembers E l
    | n =>
      match read E n with
      | .error e => .error e
      | .ok o =>
        match readMembers E l with
        | .error e => .error e
        | .ok m => .ok ((k, o) :: m)
end

/-! ## Loading on demand -/

/-- `Solutions` of a loaded run: every entry is loaded from the file when it is first
asked for (`OnDemandWrapper`), and remembered unless the environment variable `NO_CACHE`
is set (`_containers.py:518-535`). -/
structure Lazy where
  cache : Bool
  entries : List (String × (Obj ⊕ Node))

/-- `Solutions.__getitem__` (`_containers.py:529-535`): the value and the new state. -/
noncomputable def Lazy.getItem (E : Env) (s : Lazy) (k : String) :
    Except PyErr (Obj × Lazy) :=
  match s.entries.lookup k with
  | none => .error .KeyError
  | some (.inl o) => .ok (o, s)
  | some (.inr n) =>
    match read E n with
    | .error e => .error e
    | .ok o =>
      .ok (o, if s.cache then
          { s with entries := s.entries.map fun e => if e.1 = k then (k, .inl o) else e }
        else s)

/-- Changing the object just obtained in place: seen again only if it was remembered. -/
def Lazy.assign (s : Lazy) (k : String) (o : Obj) : Lazy :=
  { s with entries := s.entries.map fun e =>
      match e with
      | (k', .inl _) => if k' = k then (k, .inl o) else e
      | e => e }

/-- The loop of `_run_loader5` over `solutions.values()` (`_loaders.py:1231-1234`). -/
noncomputable def Lazy.fill (E : Env) (v : Obj) : List String → Lazy → Except PyErr Lazy
  | [], s => .ok s
  | k :: l, s =>
    match s.getItem E k with
    | .error e => .error e
    | .ok (o, s') =>
      match fillSolution v o with
      | .error e => .error e
      | .ok o' => Lazy.fill E v l (s'.assign k o')

end DiscSolver.FileFormat
