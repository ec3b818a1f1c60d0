import Verif.Model.Inputs

/-!
# Configuration files

`ConfigInput.to_conf_file` (`src/disc_solver/file_format/_containers.py:135-182`) and
`get_input_from_conffile` (`src/disc_solver/solve/config.py:111-177`), on the text of the
file.  `CaseDependentConfigParser` (`src/disc_solver/utils.py:156-162`) is Python's
`ConfigParser` with its defaults and without the change of case; the part of
`configparser` used is modelled here on lists of characters.  The encoding of the file
is not modelled, lines end at `\n` only, and blanks are the ASCII ones.
-/

namespace DiscSolver

/-! ## `configparser`: interpolation -/

namespace Cfg

/-- `s.replace('%%', '')`. -/
def dropEscaped : Text → Text
  | '%' :: '%' :: s => dropEscaped s
  | c :: s => c :: dropEscaped s
  | [] => []

/-- The group of `%\(([^)]+)\)s` and the rest of the text, at the start of a text
whose `%(` has been removed. -/
def matchKey (s : Text) : Option (Text × Text) :=
  let key := s.takeWhile (· ≠ ')')
  match key, s.dropWhile (· ≠ ')') with
  | [], _ => none
  | key, ')' :: 's' :: rest => some (key, rest)
  | _, _ => none

/-- `re.sub(r"%\(([^)]+)\)s", '', s)`; every step consumes a character, so the length
of the text is fuel enough. -/
def dropKeys : ℕ → Text → Text
  | 0, s => s
  | _ + 1, [] => []
  | n + 1, c :: s =>
    match c, s with
    | '%', '(' :: t =>
      match matchKey t with
      | some (_, rest) => dropKeys n rest
      | none => c :: dropKeys n s
    | _, _ => c :: dropKeys n s

/-- `BasicInterpolation.before_set`. -/
def before_set (v : Text) : Except PyErr Text :=
  let tmp := dropEscaped v
  if '%' ∈ dropKeys tmp.length tmp then .error .ValueError else .ok v

/-- The loop of `BasicInterpolation._interpolate_some`; `expand` is the recursive call
for the value of another option and the first argument bounds the steps by the length
of the text. -/
def interpLoop (expand : Text → Except PyErr Text) : ℕ → Text → Except PyErr Text
  | 0, _ => .ok []
  | _ + 1, [] => .ok []
  | n + 1, c :: s =>
    if c = '%' then
      match s with
      | '%' :: t =>
        match interpLoop expand n t with
        | .ok r => .ok ('%' :: r)
        | .error e => .error e
      | '(' :: t =>
        match matchKey t with
        | none => .error .ConfigParserError
        | some (key, rest) =>
          match expand key with
          | .error e => .error e
          | .ok v =>
            match interpLoop expand n rest with
            | .ok r => .ok (v ++ r)
            | .error e => .error e
      | _ => .error .ConfigParserError
    else
      match interpLoop expand n s with
      | .ok r => .ok (c :: r)
      | .error e => .error e

/-- `BasicInterpolation._interpolate_some`; the first argument is what remains of
`MAX_INTERPOLATION_DEPTH`. -/
def interpolate (look : Text → Option Text) : ℕ → Text → Except PyErr Text
  | 0, _ => .error .ConfigParserError
  | d + 1, v =>
    interpLoop (fun key =>
      match look key with
      | none => .error .ConfigParserError
      | some w => if '%' ∈ w then interpolate look d w else .ok w) v.length v

/-! ## `configparser`: writing -/

/-- `s.replace('\n', '\n\t')`. -/
def indentNewlines : Text → Text
  | [] => []
  | c :: s => if c = '\n' then '\n' :: '\t' :: indentNewlines s else c :: indentNewlines s

/-- One line of `RawConfigParser._write_section`. -/
def writeItem (p : Text × Text) : Text :=
  p.1 ++ " = ".toList ++ indentNewlines p.2 ++ ['\n']

/-- `RawConfigParser._write_section`. -/
def writeSection (name : Text) (items : List (Text × Text)) : Text :=
  '[' :: name ++ [']', '\n'] ++ (items.map writeItem).flatten ++ ['\n']

/-! ## `configparser`: reading -/

/-- The lines of a file, without their ends. -/
def fileLines (t : Text) : List Text :=
  let l := t.splitOn '\n'
  if l.getLast? = some [] then l.dropLast else l

/-- The state of `RawConfigParser._read`: the sections read so far (each value as its
list of lines), `sectname`, `optname`, `indent_level`, `elements_added` (a section has no
option name) and whether a line could not be understood.  The section `DEFAULT` is kept
among the sections. -/
structure RState where
  sections : Dict Text (Dict Text (List Text))
  cur : Option Text
  opt : Option Text
  indent : ℕ
  added : List (Text × Option Text)
  bad : Bool

/-- The section headed by `DEFAULT`. -/
def defaultSection : Text := "DEFAULT".toList

/-- `cursect[optname].append(v)`. -/
def appendLine (secs : Dict Text (Dict Text (List Text))) (sec opt v : Text) :
    Dict Text (Dict Text (List Text)) :=
  match secs.get? sec with
  | none => secs
  | some d =>
    match d.get? opt with
    | none => secs
    | some l => secs.set sec (d.set opt (l ++ [v]))

/-- `SECTCRE.match(value)`: the text between `[` and the last `]`. -/
def matchSection : Text → Option Text
  | '[' :: s =>
    match (s.reverse.dropWhile (· ≠ ']')).reverse with
    | [] => none
    | h => if h.dropLast = [] then none else some h.dropLast
  | _ => none

/-- `OPTCRE.match(value)`: name and value around the first `=` or `:`. -/
def matchOption (v : Text) : Option (Text × Text) :=
  match v.dropWhile (fun c => c ≠ '=' && c ≠ ':') with
  | [] => none
  | _ :: rest =>
    some (Text.rstrip (v.takeWhile (fun c => c ≠ '=' && c ≠ ':')), Text.strip rest)

/-- One line of `RawConfigParser._read`. -/
def readLine (st : RState) (line : Text) : Except PyErr RState :=
  let stripped := Text.strip line
  let comment := stripped.head? = some '#' ∨ stripped.head? = some ';'
  let value := if comment then [] else stripped
  if value = [] then
    if comment then .ok st
    else
      match st.cur, st.opt with
      | some sec, some o =>
        if o = [] then .ok st
        else .ok { st with sections := appendLine st.sections sec o [] }
      | _, _ => .ok st
  else
    let ind := (line.takeWhile Text.isSpace).length
    match st.cur, st.opt with
    | some sec, some o =>
      if o ≠ [] ∧ st.indent < ind then
        .ok { st with sections := appendLine st.sections sec o value }
      else header st ind value
    | _, _ => header st ind value
where
  /-- The branch for a section header or an option. -/
  header (st : RState) (ind : ℕ) (value : Text) : Except PyErr RState :=
    match matchSection value with
    | some name =>
      if name = defaultSection then
        .ok { st with
          sections := if (st.sections.get? name).isSome then st.sections
            else st.sections.set name []
          cur := some name, opt := none, indent := ind }
      else if (st.sections.get? name).isSome then
        if (name, none) ∈ st.added then .error .ConfigParserError
        else .ok { st with cur := some name, opt := none, indent := ind,
                           added := (name, none) :: st.added }
      else
        .ok { st with sections := st.sections.set name [], cur := some name, opt := none,
                      indent := ind, added := (name, none) :: st.added }
    | none =>
      match st.cur with
      | none => .error .ConfigParserError
      | some sec =>
        match matchOption value with
        | none => .ok { st with indent := ind, bad := true }
        | some (name, val) =>
          if (sec, some name) ∈ st.added then .error .ConfigParserError
          else
            .ok { st with
              sections := st.sections.set sec (((st.sections.get? sec).getD []).set name [val])
              opt := some name, indent := ind, added := (sec, some name) :: st.added
              bad := st.bad || name = [] }

/-- `_join_multiline_values` for one value. -/
def joinValue (l : List Text) : Text := Text.rstrip (['\n'].intercalate l)

/-- The state before the first line. -/
def start : RState :=
  { sections := [], cur := none, opt := none, indent := 0, added := [], bad := false }

/-- `RawConfigParser.read_file`. -/
def readFile (t : Text) : Except PyErr (Dict Text (Dict Text (List Text))) :=
  match (fileLines t).foldlM readLine start with
  | .error e => .error e
  | .ok st => if st.bad then .error .ConfigParserError else .ok st.sections

/-- `d[option]` in the `ChainMap` of `_unify_values`, for an existing section. -/
def lookup (secs : Dict Text (Dict Text (List Text))) (d : Dict Text (List Text))
    (option : Text) : Option Text :=
  match d.get? option with
  | some l => some (joinValue l)
  | none =>
    match secs.get? defaultSection with
    | none => none
    | some e => (e.get? option).map joinValue

/-- `config.get(section, option, fallback=fallback)`. -/
def get (secs : Dict Text (Dict Text (List Text))) (section_ option fallback : Text) :
    Except PyErr Text :=
  match secs.get? section_ with
  | none => .ok fallback
  | some d =>
    match lookup secs d option with
    | none => .ok fallback
    | some v => interpolate (lookup secs d) 10 v

end Cfg

/-! ## The code -/

/-- The section holding each field (`_containers.py:142-181`, `config.py:121-176`). -/
def CField.section : CField → Text
  | .s .γ | .s .v_rin_on_c_s | .s .v_a_on_c_s | .s .c_s_on_v_k | .s .η_O | .s .η_H
  | .s .η_A => "initial".toList
  | _ => "config".toList

/-- The options of `[config]` in the order they are set (`_containers.py:142-179`). -/
def configKeys : List CField :=
  [.s .start, .s .stop, .s .taylor_stop_angle, .s .max_steps, .s .num_angles, .label,
   .s .relative_tolerance, .s .absolute_tolerance, .s .nwalkers, .s .iterations,
   .s .threads, .s .target_velocity, .s .split_method, .s .interp_range,
   .s .interp_slice, .s .use_E_r, .s .η_derivs, .s .use_taylor_jump,
   .s .jump_before_sonic, .s .mcmc_vars, .s .v_θ_sonic_crit, .s .after_sonic,
   .s .sonic_interp_size]

/-- The options of `[initial]` (`_containers.py:159-165`). -/
def initialKeys : List CField :=
  [.s .γ, .s .v_rin_on_c_s, .s .v_a_on_c_s, .s .c_s_on_v_k, .s .η_O, .s .η_H, .s .η_A]

/-- Options written only when not `None` (`_containers.py:170-179`). -/
def CField.skipNone : CField → Bool
  | .s .jump_before_sonic | .s .mcmc_vars | .s .v_θ_sonic_crit | .s .after_sonic
  | .s .sonic_interp_size => true
  | _ => false

/-- `cfg[section][name] = value` for a list of options, in order: `TypeError` for
`None`, `ValueError` for a bad `%`. -/
def setItems (c : ConfigInput) : List CField → Except PyErr (List (Text × Text))
  | [] => .ok []
  | f :: fs =>
    match c f with
    | none => if f.skipNone then setItems c fs else .error .TypeError
    | some t =>
      match Cfg.before_set t with
      | .error e => .error e
      | .ok t =>
        match setItems c fs with
        | .error e => .error e
        | .ok l => .ok ((f.name.toList, t) :: l)

/-- `ConfigInput.to_conf_file` (`_containers.py:135-182`): the text written.  The code
sets the options of `[initial]` between those of `[config]`; which of two errors is
raised first is not modelled. -/
def ConfigInput.to_conf_file (c : ConfigInput) : Except PyErr Text :=
  match setItems c configKeys with
  | .error e => .error e
  | .ok l =>
    match setItems c initialKeys with
    | .error e => .error e
    | .ok m => .ok (Cfg.writeSection "config".toList l ++ Cfg.writeSection "initial".toList m)

/-- The fallbacks of `get_input_from_conffile` (`config.py:121-176`). -/
def CField.fallback : CField → Text
  | .label => "default".toList
  | .s .start => "0".toList
  | .s .stop => "5".toList
  | .s .taylor_stop_angle => "0.001".toList
  | .s .max_steps => "10000".toList
  | .s .num_angles => "10000".toList
  | .s .relative_tolerance => "1e-6".toList
  | .s .absolute_tolerance => "1e-10".toList
  | .s .jump_before_sonic => "None".toList
  | .s .v_θ_sonic_crit => "None".toList
  | .s .after_sonic => "None".toList
  | .s .interp_range => "10".toList
  | .s .sonic_interp_size => "None".toList
  | .s .interp_slice => "-1000,-100".toList
  | .s .η_derivs => "True".toList
  | .s .nwalkers => "8".toList
  | .s .iterations => "3".toList
  | .s .threads => "1".toList
  | .s .mcmc_vars => "v_r,v_a,v_k".toList
  | .s .target_velocity => "0.9".toList
  | .s .split_method => "v_θ_deriv".toList
  | .s .use_taylor_jump => "True".toList
  | .s .use_E_r => "False".toList
  | .s .γ => "0.001".toList
  | .s .v_rin_on_c_s => "1".toList
  | .s .v_a_on_c_s => "1".toList
  | .s .c_s_on_v_k => "0.03".toList
  | .s .η_O => "0.001".toList
  | .s .η_H => "0.0001".toList
  | .s .η_A => "0.0005".toList

/-- The order in which the options are read (`config.py:121-176`). -/
def CField.getOrder : List CField :=
  [.s .start, .s .stop, .s .taylor_stop_angle, .s .max_steps, .s .num_angles, .label,
   .s .relative_tolerance, .s .absolute_tolerance, .s .jump_before_sonic,
   .s .v_θ_sonic_crit, .s .after_sonic, .s .interp_range, .s .sonic_interp_size,
   .s .interp_slice, .s .η_derivs, .s .nwalkers, .s .iterations, .s .threads,
   .s .mcmc_vars, .s .target_velocity, .s .split_method, .s .use_taylor_jump,
   .s .use_E_r, .s .γ, .s .v_rin_on_c_s, .s .v_a_on_c_s, .s .c_s_on_v_k, .s .η_O,
   .s .η_H, .s .η_A]

/-- The text of an option already known to have been read. -/
def gotValue : Except PyErr Text → Option Text
  | .ok v => some v
  | .error _ => none

/-- `get_input_from_conffile` (`config.py:111-177`) of the text of the file, `none` for
no file.  (The default in `gotValue` is never used: every field is in `getOrder`.) -/
def get_input_from_conffile (file : Option Text) (overrides : Option Overrides) :
    Except PyErr ConfigInput :=
  let secs : Except PyErr (Dict Text (Dict Text (List Text))) := match file with
    | none => .ok []
    | some t => Cfg.readFile t
  match secs with
  | .error e => .error e
  | .ok secs =>
    let g := fun f : CField => Cfg.get secs f.section f.name.toList f.fallback
    match CField.getOrder.findSome? (fun f => raised (g f)) with
    | some e => .error e
    | none => add_overrides overrides (ConfigInput.mk fun f => gotValue (g f))

end DiscSolver
