import Verif.Model.FileFormat

/-!
# What a file must preserve

Independent of the dumpers and loaders: the kinds of values the containers hold while the
solver runs, and when a container read from a file is the same as the one written.
-/

namespace DiscSolver.FileFormat

/-- The kinds of values in the fields of the containers. -/
inductive Kind where
  /-- text, a truth value, a number or an array -/
  | scalar
  /-- an array or `numpy` number -/
  | array
  /-- `None` or an array or `numpy` number -/
  | optArray
  /-- `None`, text, a truth value or a Python number -/
  | builtin
  /-- `None` or text that is not empty -/
  | optText
  /-- `None`, a Python number or a `numpy` number -/
  | optNumber
  /-- always `None` -/
  | unset
  /-- a container -/
  | obj (c : Cls)
  /-- `None` or a container -/
  | optObj (c : Cls)
  | problems
  | solutions
deriving DecidableEq

/-- The fields of the containers (`_containers.py`, in the order of the classes) and what
they hold: the input as text in `ConfigInput`, as numbers in `SolutionInput`
(`_containers.py:185-242`); `derivatives` of a solution is never set. -/
def kinds : Cls → List (String × Kind)
  | .Solution =>
    [("solution_input", .obj .SolutionInput), ("angles", .array), ("solution", .array),
     ("flag", .scalar), ("coordinate_system", .scalar),
     ("internal_data", .optObj .InternalData),
     ("initial_conditions", .obj .InitialConditions),
     ("t_roots", .optArray), ("y_roots", .optArray), ("sonic_point", .optArray),
     ("sonic_point_values", .optArray), ("derivatives", .unset),
     ("is_post_shock_only", .scalar)]
  | .ConfigInput =>
    [("start", .scalar), ("stop", .scalar), ("taylor_stop_angle", .scalar),
     ("max_steps", .scalar), ("num_angles", .scalar), ("label", .scalar),
     ("relative_tolerance", .scalar), ("absolute_tolerance", .scalar), ("γ", .scalar),
     ("nwalkers", .scalar), ("iterations", .scalar), ("threads", .scalar),
     ("target_velocity", .scalar), ("split_method", .scalar), ("v_rin_on_c_s", .scalar),
     ("v_a_on_c_s", .scalar), ("c_s_on_v_k", .scalar), ("η_O", .scalar), ("η_H", .scalar),
     ("η_A", .scalar), ("η_derivs", .scalar), ("jump_before_sonic", .optText),
     ("use_taylor_jump", .scalar), ("mcmc_vars", .optText), ("v_θ_sonic_crit", .optText),
     ("after_sonic", .optText), ("sonic_interp_size", .optText), ("interp_range", .optText),
     ("interp_slice", .optText), ("use_E_r", .scalar)]
  | .SolutionInput =>
    [("start", .scalar), ("stop", .scalar), ("taylor_stop_angle", .scalar),
     ("max_steps", .scalar), ("num_angles", .scalar), ("relative_tolerance", .scalar),
     ("absolute_tolerance", .scalar), ("γ", .scalar), ("nwalkers", .scalar),
     ("iterations", .scalar), ("threads", .scalar), ("target_velocity", .scalar),
     ("split_method", .scalar), ("v_rin_on_c_s", .scalar), ("v_a_on_c_s", .scalar),
     ("c_s_on_v_k", .scalar), ("η_O", .scalar), ("η_H", .scalar), ("η_A", .scalar),
     ("η_derivs", .scalar), ("jump_before_sonic", .optArray), ("use_taylor_jump", .scalar),
     ("mcmc_vars", .optObj .MCMCVars), ("v_θ_sonic_crit", .optArray),
     ("after_sonic", .optArray), ("sonic_interp_size", .optArray),
     ("interp_range", .optNumber), ("interp_slice", .optObj .slice), ("use_E_r", .scalar)]
  | .JacobianData =>
    [("jacobians", .array), ("derivs", .array), ("params", .array), ("angles", .array)]
  | .InternalData =>
    [("derivs", .array), ("params", .array), ("angles", .array),
     ("jacobian_data", .obj .JacobianData), ("v_r_normal", .array), ("v_φ_normal", .array),
     ("ρ_normal", .array), ("v_r_taylor", .array), ("v_φ_taylor", .array),
     ("ρ_taylor", .array), ("problems", .problems)]
  | .Run =>
    [("config_input", .obj .ConfigInput), ("config_filename", .builtin),
     ("disc_solver_version", .builtin), ("float_type", .builtin), ("sonic_method", .builtin),
     ("time", .builtin), ("use_E_r", .builtin), ("final_solution", .optObj .Solution),
     ("solutions", .solutions), ("is_post_shock_only", .scalar),
     ("based_on_solution_filename", .builtin), ("based_on_solution_solution_name", .builtin)]
  | .MCMCVars => [("with_v_r", .builtin), ("with_v_a", .builtin), ("with_v_k", .builtin)]
  | .slice => [("start", .optNumber), ("stop", .optNumber), ("step", .optNumber)]
  | .InitialConditions =>
    [("norm_kepler_sq", .scalar), ("η_O", .scalar), ("η_A", .scalar), ("η_H", .scalar),
     ("γ", .scalar), ("init_con", .scalar), ("angles", .array), ("a_0", .scalar)]

/-- The number `x`, as a Python or as a `numpy` number. -/
def IsNumber (x : ℝ) (o : Obj) : Prop := o = .num (.val x) ∨ o = .arr ⟨[], [.val x]⟩

/-- In initial conditions the diffusivities are numbers, and repeated in the array of
eleven initial values. -/
def Consistent (fields : List (String × Obj)) : Prop :=
  ∃ (a : NArr) (o h m : Obj) (x y z : ℝ),
    fields.lookup "init_con" = some (.arr a) ∧ a.data.length = 11 ∧
    fields.lookup "η_O" = some o ∧ fields.lookup "η_A" = some m ∧
    fields.lookup "η_H" = some h ∧
    IsNumber x o ∧ IsNumber y m ∧ IsNumber z h ∧
    a.data[8]? = some (.val x) ∧ a.data[9]? = some (.val y) ∧ a.data[10]? = some (.val z)

/-- `o` is a value of the given kind. -/
inductive Fits : Kind → Obj → Prop
  | scalar_text (s : String) : Fits .scalar (.text s)
  | scalar_bool (b : Bool) : Fits .scalar (.bool b)
  | scalar_num (x : Fl) : Fits .scalar (.num x)
  | scalar_arr (a : NArr) : Fits .scalar (.arr a)
  | array (a : NArr) : Fits .array (.arr a)
  | optArray_none : Fits .optArray .none
  | optArray (a : NArr) : Fits .optArray (.arr a)
  | builtin_none : Fits .builtin .none
  | builtin_text (s : String) : Fits .builtin (.text s)
  | builtin_bool (b : Bool) : Fits .builtin (.bool b)
  | builtin_num (x : Fl) : Fits .builtin (.num x)
  | optText_none : Fits .optText .none
  | optText (s : String) (h : s ≠ "") : Fits .optText (.text s)
  | optNumber_none : Fits .optNumber .none
  | optNumber_num (x : Fl) : Fits .optNumber (.num x)
  | optNumber_arr (x : Fl) : Fits .optNumber (.arr ⟨[], [x]⟩)
  | unset : Fits .unset .none
  | obj (c : Cls) (fields : List (String × Obj))
      (names : fields.map (·.1) = (kinds c).map (·.1))
      (consistent : c = .InitialConditions → Consistent fields)
      (fit : ∀ k κ o, (kinds c).lookup k = some κ → fields.lookup k = some o → Fits κ o) :
      Fits (.obj c) (.obj c fields)
  | optObj_none (c : Cls) : Fits (.optObj c) .none
  | optObj (c : Cls) (o : Obj) (fit : Fits (.obj c) o) : Fits (.optObj c) o
  /-- messages under different names, without trailing zero characters -/
  | problems (p : List (String × List String)) (names : (p.map (·.1)).Nodup)
      (clean : ∀ e ∈ p, ∀ s ∈ e.2, ¬ ∃ t, s.toList = t ++ ['\x00']) :
      Fits .problems (.problems p)
  /-- solutions under different names -/
  | solutions (d : List (String × Obj)) (names : (d.map (·.1)).Nodup)
      (fit : ∀ k o, d.lookup k = some o → Fits (.obj .Solution) o) :
      Fits .solutions (.solutions d)

/-- The same to a user: all values are equal, except that empty arrays may get another
shape, and that problems and solutions, which are found by name, may be listed in another
order. -/
inductive Same : Obj → Obj → Prop
  | refl (o : Obj) : Same o o
  | empty (a b : NArr) (ha : a.data = []) (hb : b.data = []) : Same (.arr a) (.arr b)
  | obj (c : Cls) (f g : List (String × Obj)) (names : f.map (·.1) = g.map (·.1))
      (fields : ∀ k o o', f.lookup k = some o → g.lookup k = some o' → Same o o') :
      Same (.obj c f) (.obj c g)
  | problems (p q : List (String × List String)) (h : p.Perm q) :
      Same (.problems p) (.problems q)
  | solutions (d e : List (String × Obj)) (names : (d.map (·.1)).Perm (e.map (·.1)))
      (values : ∀ k o o', d.lookup k = some o → e.lookup k = some o' → Same o o') :
      Same (.solutions d) (.solutions e)

/-! ## Older files -/

/-- The version of a container's format in which a field appeared; the others were there
from the start. -/
def introduced : Cls → String → ℕ
  | .ConfigInput, k | .SolutionInput, k =>
    match k with
    | "jump_before_sonic" => 2
    | "η_derivs" => 3
    | "γ" => 4
    | "nwalkers" | "iterations" | "threads" => 5
    | "target_velocity" => 6
    | "split_method" => 7
    | "use_taylor_jump" => 8
    | "mcmc_vars" => 9
    | "v_θ_sonic_crit" => 10
    | "after_sonic" => 11
    | "sonic_interp_size" | "interp_range" => 12
    | "interp_slice" => 13
    | "use_E_r" => 14
    | _ => 1
  | .Solution, k =>
    match k with
    | "derivatives" => 2
    | "sonic_point" | "sonic_point_values" => 3
    | "is_post_shock_only" => 4
    | _ => 1
  | .InitialConditions, k =>
    match k with
    | "a_0" => 2
    | "γ" => 3
    | _ => 1
  | .Run, k =>
    match k with
    | "disc_solver_version" => 2
    | "float_type" => 3
    | "sonic_method" => 4
    | "use_E_r" => 5
    | "is_post_shock_only" | "based_on_solution_filename"
    | "based_on_solution_solution_name" => 6
    | _ => 1
  | .InternalData, k =>
    match k with
    | "problems" => 2
    | "jacobian_data" => 3
    | _ => 1
  | _, _ => 1

/-- The value a field has when the file is older than the field.  The numbers of walkers,
iterations and threads, the target velocity and `use_E_r` are unknown; the method of
splitting is the one used before there was a choice, but unknown in the one version of
`ConfigInput` that also lacks the others. -/
def assumed : Cls → ℕ → String → Obj
  | .ConfigInput, v, k =>
    match k with
    | "split_method" => if v = 4 then .none else .text "v_θ_deriv"
    | "η_derivs" | "use_taylor_jump" => .text "True"
    | "interp_range" => .text "10"
    | "interp_slice" => .text "-1000,-100"
    | _ => .none
  | .SolutionInput, _, k =>
    match k with
    | "split_method" => .text "v_θ_deriv"
    | "η_derivs" | "use_taylor_jump" => .bool true
    | "interp_range" => .num (.val 10)
    | "interp_slice" => .obj .slice
      [("start", .num (.val (-1000))), ("stop", .num (.val (-100))), ("step", .none)]
    | _ => .none
  | .Solution, _, k =>
    match k with
    | "is_post_shock_only" => .bool false
    | _ => .none
  | .Run, _, k =>
    match k with
    | "sonic_method" => .text "unknown"
    | "use_E_r" | "is_post_shock_only" => .bool false
    | _ => .none
  | .InitialConditions, _, _ => .num .nan
  | _, _, _ => .none

/-- A member of a group holds a value: datasets hold arrays, and groups what is read from
them. -/
inductive Holds (E : Env) : Node → Obj → Prop
  | none : Holds E .none .none
  | text (s : String) : Holds E (.text s) (.text s)
  | bool (b : Bool) : Holds E (.bool b) (.bool b)
  | num (x : Fl) : Holds E (.num x) (.num x)
  | data (a : NArr) : Holds E (.data a) (.arr a)
  | group (l : String) (v : ℕ) (a : List (String × Obj)) (m : List (String × Node)) (o : Obj)
      (h : read E (.group l v a m) = .ok o) (hn : ∀ b, o ≠ .arr b) :
      Holds E (.group l v a m) o

/-- Which fields of a kind are attributes: in version 12 of the inputs also the range of
interpolation. -/
def inAttrs (c : Cls) (v : ℕ) (k : String) (κ : Kind) : Prop :=
  κ = .scalar ∨ (v = 12 ∧ k = "interp_range" ∧ (c = .ConfigInput ∨ c = .SolutionInput))

instance (c : Cls) (v : ℕ) (k : String) (κ : Kind) : Decidable (inAttrs c v k κ) := by
  unfold inAttrs; infer_instance

/-- Values from older files: like those of the present, but scalars of containers may be
unknown. -/
inductive Shaped : Kind → Obj → Prop
  | usual (κ : Kind) (o : Obj) (fit : Fits κ o) : Shaped κ o
  | unknown : Shaped .scalar .none
  | obj (c : Cls) (fields : List (String × Obj))
      (names : fields.map (·.1) = (kinds c).map (·.1))
      (fit : ∀ k κ o, (kinds c).lookup k = some κ → fields.lookup k = some o → Shaped κ o) :
      Shaped (.obj c) (.obj c fields)
  | optObj (c : Cls) (o : Obj) (fit : Shaped (.obj c) o) : Shaped (.optObj c) o
  | solutions (d : List (String × Obj)) (names : (d.map (·.1)).Nodup)
      (fit : ∀ k o, d.lookup k = some o → Shaped (.obj .Solution) o) :
      Shaped .solutions (.solutions d)

/-- A group of version `v` holding the given values of the fields there were. -/
structure IsFile (E : Env) (c : Cls) (v : ℕ) (attributes : List (String × Obj))
    (nodes : List (String × Node)) (value : String → Obj) : Prop where
  shaped : ∀ k κ, (kinds c).lookup k = some κ → introduced c k ≤ v → Shaped κ (value k)
  attrs : ∀ k κ, (kinds c).lookup k = some κ → introduced c k ≤ v → inAttrs c v k κ →
    attributes.lookup k = some (value k)
  members : ∀ k κ, (kinds c).lookup k = some κ → introduced c k ≤ v → ¬ inAttrs c v k κ →
    ∃ n, nodes.lookup k = some n ∧ Holds E n (value k)
  /-- nothing else is there -/
  only : ∀ k n, (k, n) ∈ nodes → ∃ κ, (kinds c).lookup k = some κ ∧
    introduced c k ≤ v ∧ ¬ inAttrs c v k κ
  names : (nodes.map (·.1)).Nodup

/-- The values after loading. -/
def migrated (c : Cls) (v : ℕ) (value : String → Obj) (k : String) : Obj :=
  if introduced c k ≤ v then value k else assumed c v k

/-- An unknown value replaced. -/
def known (v : Obj) : Obj → Obj
  | .none => v
  | o => o

/-- A field of an object changed. -/
def onField (k : String) (g : Obj → Obj) : Obj → Obj
  | .obj c fields => .obj c (fields.map fun e => if e.1 = k then (e.1, g e.2) else e)
  | o => o

/-- All solutions changed. -/
def onSolutions (g : Obj → Obj) : Obj → Obj
  | .solutions d => .solutions (d.map fun e => (e.1, g e.2))
  | o => o

/-- What a run of version 5 or later knows about `use_E_r` is put into the inputs that do
not know it. -/
def runMigrated (E : Env) (v : ℕ) (value : String → Obj) (k : String) : Obj :=
  if v < 5 then migrated .Run v value k
  else if k = "config_input" then
    onField "use_E_r" (known (.text (E.str (value "use_E_r")))) (value k)
  else if k = "solutions" then
    onSolutions (onField "solution_input" (onField "use_E_r" (known (value "use_E_r")))) (value k)
  else if k = "final_solution" then
    onField "solution_input" (onField "use_E_r" (known (value "use_E_r"))) (value k)
  else migrated .Run v value k

end DiscSolver.FileFormat
