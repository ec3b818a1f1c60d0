import Verif.Model.Text
import Verif.Model.Slice

/-!
# Configuration and solver inputs

`src/disc_solver/file_format/_containers.py:21-63, 92-342, 713-729`,
`src/disc_solver/solve/utils.py:155-177` and
`src/disc_solver/solve/config.py:180-209`.

An `attrs` class with many fields is a function from field names, so that
`attr.evolve`, `asdict` and `setattr` act on single fields.
-/

namespace DiscSolver

/-- The fields of `SolutionInput` in order (`_containers.py:246-278`). -/
inductive SField where
  | start | stop | taylor_stop_angle | max_steps | num_angles | relative_tolerance
  | absolute_tolerance | γ | nwalkers | iterations | threads | target_velocity
  | split_method | v_rin_on_c_s | v_a_on_c_s | c_s_on_v_k | η_O | η_H | η_A | η_derivs
  | jump_before_sonic | use_taylor_jump | mcmc_vars | v_θ_sonic_crit | after_sonic
  | sonic_interp_size | interp_range | interp_slice | use_E_r
deriving DecidableEq, Repr

/-- The fields of `ConfigInput` (`_containers.py:92-127`): those of `SolutionInput`
and `label`. -/
inductive CField where
  | label
  | s (f : SField)
deriving DecidableEq, Repr

/-- Field names as Python identifiers. -/
def SField.name : SField → String
  | start => "start" | stop => "stop" | taylor_stop_angle => "taylor_stop_angle"
  | max_steps => "max_steps" | num_angles => "num_angles"
  | relative_tolerance => "relative_tolerance"
  | absolute_tolerance => "absolute_tolerance" | γ => "γ" | nwalkers => "nwalkers"
  | iterations => "iterations" | threads => "threads"
  | target_velocity => "target_velocity" | split_method => "split_method"
  | v_rin_on_c_s => "v_rin_on_c_s" | v_a_on_c_s => "v_a_on_c_s"
  | c_s_on_v_k => "c_s_on_v_k" | η_O => "η_O" | η_H => "η_H" | η_A => "η_A"
  | η_derivs => "η_derivs" | jump_before_sonic => "jump_before_sonic"
  | use_taylor_jump => "use_taylor_jump" | mcmc_vars => "mcmc_vars"
  | v_θ_sonic_crit => "v_θ_sonic_crit" | after_sonic => "after_sonic"
  | sonic_interp_size => "sonic_interp_size" | interp_range => "interp_range"
  | interp_slice => "interp_slice" | use_E_r => "use_E_r"

/-- `SOLUTION_INPUT_FIELDS` (`file_format/__init__.py:21`, `_utils.py:23-27`). -/
def SField.all : List SField :=
  [.start, .stop, .taylor_stop_angle, .max_steps, .num_angles, .relative_tolerance,
   .absolute_tolerance, .γ, .nwalkers, .iterations, .threads, .target_velocity,
   .split_method, .v_rin_on_c_s, .v_a_on_c_s, .c_s_on_v_k, .η_O, .η_H, .η_A, .η_derivs,
   .jump_before_sonic, .use_taylor_jump, .mcmc_vars, .v_θ_sonic_crit, .after_sonic,
   .sonic_interp_size, .interp_range, .interp_slice, .use_E_r]

/-- Names of the configuration fields. -/
def CField.name : CField → String
  | label => "label"
  | s f => f.name

/-- `CONFIG_FIELDS` (`file_format/__init__.py:20`), in the order of the class. -/
def CField.all : List CField :=
  [.s .start, .s .stop, .s .taylor_stop_angle, .s .max_steps, .s .num_angles, .label,
   .s .relative_tolerance, .s .absolute_tolerance, .s .γ, .s .nwalkers, .s .iterations,
   .s .threads, .s .target_velocity, .s .split_method, .s .v_rin_on_c_s, .s .v_a_on_c_s,
   .s .c_s_on_v_k, .s .η_O, .s .η_H, .s .η_A, .s .η_derivs, .s .jump_before_sonic,
   .s .use_taylor_jump, .s .mcmc_vars, .s .v_θ_sonic_crit, .s .after_sonic,
   .s .sonic_interp_size, .s .interp_range, .s .interp_slice, .s .use_E_r]

/-- `MCMCVars` (`_containers.py:713-721`). -/
structure MCMCVars where
  with_v_r : Bool
  with_v_a : Bool
  with_v_k : Bool
deriving DecidableEq, Repr

/-- `MCMCVars.__str__` (`_containers.py:721-729`). -/
def MCMCVars.str (m : MCMCVars) : Text :=
  Text.joinComma (
    (if m.with_v_r then ["v_r".toList] else []) ++
    (if m.with_v_a then ["v_a".toList] else []) ++
    (if m.with_v_k then ["v_k".toList] else []))

/-- `mcmc_vars_str_to_obj` (`_containers.py:21-34`) of a string or `None`. -/
def mcmc_vars_str_to_obj : Option Text → Option MCMCVars
  | none => none
  | some t =>
    if t = Text.none then none
    else
      let split_str := (Text.strip t).splitComma
      some { with_v_r := "v_r".toList ∈ split_str, with_v_a := "v_a".toList ∈ split_str,
             with_v_k := "v_k".toList ∈ split_str }

/-- `slice(*args)`. -/
def mkSlice : List Int → Except PyErr PySlice
  | [b] => .ok ⟨none, some b, none⟩
  | [a, b] => .ok ⟨some a, some b, none⟩
  | [a, b, c] => .ok ⟨some a, some b, some c⟩
  | _ => .error .TypeError

/-- `str_to_slice` (`_containers.py:37-47`) of a string or `None`.  `eval` of a string
starting with `slice(` is an argument. -/
def str_to_slice (eval : Text → Except PyErr (Option PySlice)) :
    Option Text → Except PyErr (Option PySlice)
  | none => .ok none
  | some t =>
    if t = Text.none then .ok none
    else if "slice(".toList.isPrefixOf t then eval t
    else
      match (Text.strip t).splitComma.mapM Text.toInt with
      | .error e => .error e
      | .ok l =>
        match mkSlice l with
        | .error e => .error e
        | .ok s => .ok (some s)

/-- `slice_to_str` (`_containers.py:50-57`); `AttributeError` for `None`. -/
def slice_to_str : Option PySlice → Except PyErr Text
  | none => .error .AttributeError
  | some s => .ok (Text.joinComma
      (([s.start, s.stop, s.step].filterMap id).map Text.ofInt))

/-- `replace_empty_string` (`_containers.py:60-66`). -/
def replace_empty_string : Option Text → Option Text
  | some [] => some Text.none
  | t => t

/-- The value of a `SolutionInput` field; `F` is the floating-point type. -/
inductive SVal (F : Type) where
  | float (x : F)
  | int (n : Int)
  | bool (b : Bool)
  | str (t : Text)
  | slice (s : PySlice)
  | mcmc (m : MCMCVars)
  | none

/-- `ConfigInput`: every field holds a string or `None`. -/
abbrev ConfigInput := CField → Option Text

/-- `SolutionInput`. -/
abbrev SolutionInput (F : Type) := SField → SVal F

/-- What the conversions take from other packages: the converters of `stringtopy`
(`utils.py:33-35`; with `use_none_on_fail` an unreadable number is `None`), the
floating-point constructor `float_type` (`float_handling.py`) applied to a converter's
result, `str` of a float, `eval` of slice text, and `==` of floats. -/
structure Conv (F : Type) where
  str_to_float : Option Text → Option F
  str_to_int : Option Text → Option Int
  str_to_bool : Option Text → Except PyErr Bool
  float_type : Option F → Except PyErr F
  float_str : F → Text
  eval_slice : Text → Except PyErr (Option PySlice)
  float_eq : F → F → Bool

/-- How `to_soln_input` reads a field. -/
inductive Kind where
  | float | int | bool | str | optFloat | optInt | slice | mcmc
deriving DecidableEq, Repr

/-- The conversion of each field (`_containers.py:188-242`). -/
def SField.kind : SField → Kind
  | start | stop | taylor_stop_angle | relative_tolerance | absolute_tolerance
  | target_velocity | γ | v_rin_on_c_s | v_a_on_c_s | c_s_on_v_k | η_O | η_H | η_A => .float
  | max_steps | num_angles | nwalkers | iterations | threads => .int
  | jump_before_sonic | v_θ_sonic_crit | after_sonic | sonic_interp_size => .optFloat
  | interp_range => .optInt
  | interp_slice => .slice
  | η_derivs | use_taylor_jump | use_E_r => .bool
  | split_method => .str
  | mcmc_vars => .mcmc

variable {F : Type}

/-- `float_type(str_to_float(t))`. -/
def readFloat (C : Conv F) (t : Option Text) : Except PyErr (SVal F) :=
  match C.float_type (C.str_to_float t) with
  | .ok x => .ok (.float x)
  | .error e => .error e

/-- `str_to_int(t)`. -/
def readInt (C : Conv F) (t : Option Text) : SVal F :=
  match C.str_to_int t with
  | some n => .int n
  | none => .none

/-- One field of `to_soln_input` (`_containers.py:188-242`). -/
def readField (C : Conv F) (k : Kind) (t : Option Text) : Except PyErr (SVal F) :=
  match k with
  | .float => readFloat C t
  | .int => .ok (readInt C t)
  | .bool =>
    match C.str_to_bool t with
    | .ok b => .ok (.bool b)
    | .error e => .error e
  | .str =>
    match t with
    | some t => .ok (.str t)
    | none => .ok .none
  | .optFloat => if t = some Text.none ∨ t = none then .ok .none else readFloat C t
  | .optInt => if t = some Text.none ∨ t = none then .ok .none else .ok (readInt C t)
  | .slice =>
    match str_to_slice C.eval_slice t with
    | .ok (some s) => .ok (.slice s)
    | .ok none => .ok .none
    | .error e => .error e
  | .mcmc =>
    match mcmc_vars_str_to_obj t with
    | some m => .ok (.mcmc m)
    | none => .ok .none

/-- The order in which `to_soln_input` evaluates the fields. -/
def SField.readOrder : List SField :=
  [.start, .stop, .taylor_stop_angle, .max_steps, .num_angles, .relative_tolerance,
   .absolute_tolerance, .jump_before_sonic, .v_θ_sonic_crit, .after_sonic,
   .sonic_interp_size, .interp_range, .interp_slice, .η_derivs, .nwalkers, .iterations,
   .threads, .target_velocity, .split_method, .use_taylor_jump, .mcmc_vars, .γ,
   .v_rin_on_c_s, .v_a_on_c_s, .c_s_on_v_k, .η_O, .η_H, .η_A, .use_E_r]

/-- The exception raised, if any. -/
def raised {α : Type} : Except PyErr α → Option PyErr
  | .error e => some e
  | .ok _ => none

/-- The value of a field already known to have been read. -/
def readValue : Except PyErr (SVal F) → SVal F
  | .ok v => v
  | .error _ => .none

/-- `ConfigInput.to_soln_input` (`_containers.py:184-242`): the first field that cannot
be read raises.  (The default in `readValue` is never used: every field is in
`readOrder`.) -/
def ConfigInput.to_soln_input (C : Conv F) (c : ConfigInput) :
    Except PyErr (SolutionInput F) :=
  match SField.readOrder.findSome? (fun f => raised (readField C f.kind (c (.s f)))) with
  | some e => .error e
  | none => .ok fun f => readValue (readField C f.kind (c (.s f)))

/-- `str(v)` of a field value. -/
def SVal.pyStr (C : Conv F) : SVal F → Text
  | .float x => C.float_str x
  | .int n => Text.ofInt n
  | .bool b => if b then "True".toList else "False".toList
  | .str t => t
  | .slice _ => []
  | .mcmc m => m.str
  | .none => Text.none

/-- Fields of `ConfigInput` with `converter=replace_empty_string`
(`_containers.py:118-126`). -/
def CField.hasConverter : CField → Bool
  | .s .jump_before_sonic | .s .mcmc_vars | .s .v_θ_sonic_crit | .s .after_sonic
  | .s .sonic_interp_size | .s .interp_range | .s .interp_slice => true
  | _ => false

/-- The constructor `ConfigInput(**fields)`: converters are applied. -/
def ConfigInput.mk (c : CField → Option Text) : ConfigInput := fun f =>
  if f.hasConverter then replace_empty_string (c f) else c f

/-- `SolutionInput.to_config_input` (`_containers.py:286-333`). -/
def SolutionInput.to_config_input (C : Conv F) (s : SolutionInput F) (label : Text) :
    Except PyErr ConfigInput :=
  let slice := match s .interp_slice with
    | .slice sl => slice_to_str (some sl)
    | _ => slice_to_str none
  match slice with
  | .error e => .error e
  | .ok sl => .ok <| ConfigInput.mk fun
    | .label => some label
    | .s .interp_slice => some sl
    | .s .split_method =>
      match s .split_method with
      | .str t => some t
      | _ => none
    | .s f => some ((s f).pyStr C)

/-- `SolutionInput.new_without_sonic_taylor` (`_containers.py:335-345`). -/
def SolutionInput.new_without_sonic_taylor (s : SolutionInput F) : SolutionInput F
  | .use_taylor_jump => .bool false
  | .jump_before_sonic | .v_θ_sonic_crit | .after_sonic | .interp_range | .interp_slice
  | .sonic_interp_size => .none
  | f => s f

/-- The overrides of the command line: option names and their values. -/
abbrev Overrides := Dict String Text

/-- `validate_overrides` (`solve/utils.py:165-177`). -/
def validate_overrides : List (String × Text) → Except PyErr Overrides
  | l => l.foldlM (fun d p =>
      if p.1 ∈ CField.all.map CField.name then .ok (d.set p.1 p.2)
      else .error .SolverError) []

/-- `attr.evolve(config_input, **overrides)`: the constructor with the changed
fields; an unknown field is `TypeError`. -/
def ConfigInput.evolve (c : ConfigInput) (o : Overrides) : Except PyErr ConfigInput :=
  if o.keys.all (fun k => decide (k ∈ CField.all.map CField.name)) then
    .ok (ConfigInput.mk fun f =>
      match o.get? f.name with
      | some v => some v
      | none => c f)
  else .error .TypeError

/-- `add_overrides` (`solve/utils.py:155-162`). -/
def add_overrides (o : Option Overrides) (c : ConfigInput) : Except PyErr ConfigInput :=
  match o with
  | none => .ok c
  | some o => c.evolve o

/-- `==` of field values.  `MCMCVars` has no `__eq__` (`_containers.py:712`), so two
objects built by separate calls differ.  Equality across types, as of `1` and `1.0`,
does not occur: both inputs come from the same conversions. -/
def SVal.pyEq (C : Conv F) : SVal F → SVal F → Bool
  | .float x, .float y => C.float_eq x y
  | .int m, .int n => decide (m = n)
  | .bool a, .bool b => decide (a = b)
  | .str a, .str b => decide (a = b)
  | .slice a, .slice b => decide (a = b)
  | .none, .none => true
  | _, _ => false

/-- `new_inputs_with_overrides` (`solve/config.py:180-209`). -/
def new_inputs_with_overrides (C : Conv F) (config_input : ConfigInput)
    (solution_input : SolutionInput F) (overrides : Option Overrides) :
    Except PyErr (ConfigInput × SolutionInput F) := do
  let overrides := overrides.getD []
  let new_config_input ← add_overrides (some overrides) config_input
  let new_soln_input ← new_config_input.to_soln_input C
  let initial_soln_input ← config_input.to_soln_input C
  if SField.all.all (fun f => (solution_input f).pyEq C (initial_soln_input f)) then
    pure (new_config_input, new_soln_input)
  else
    let use_soln_keys := SField.all.filter fun f =>
      !decide (f.name ∈ overrides.keys) &&
        !(initial_soln_input f).pyEq C (solution_input f)
    pure (new_config_input,
      fun f => if f ∈ use_soln_keys then solution_input f else new_soln_input f)

end DiscSolver
