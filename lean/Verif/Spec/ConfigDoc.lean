import Verif.Model.Text
import Mathlib.Data.List.Basic

/-!
# Specification: what a configuration file written by hand says

A file is a preamble of comments and blank lines followed by sections, each a header and
a list of comments, blank lines and options `name = value` or `name: value`.
-/

namespace DiscSolver.ConfDoc

/-- A line that says nothing: blank, or a comment. -/
def Filler (l : Text) : Prop :=
  '\n' ∉ l ∧ (Text.strip l = [] ∨ (Text.strip l).head? = some '#' ∨
    (Text.strip l).head? = some ';')

/-- A line in the body of a section. -/
inductive Entry where
  | filler (line : Text)
  | option (name pad : Text) (delim : Char) (rest : Text)

/-- The text of a line. -/
def Entry.line : Entry → Text
  | .filler l => l
  | .option name pad delim rest => name ++ pad ++ delim :: rest

/-- The names of options: not empty, without blanks, delimiters and the marks of
comments and headers. -/
def OptionName (k : Text) : Prop :=
  k ≠ [] ∧ ∀ c ∈ k, Text.isSpace c = false ∧ c ≠ '=' ∧ c ≠ ':' ∧ c ≠ '#' ∧ c ≠ ';' ∧ c ≠ '['

/-- The lines covered: options start at the margin and end with the line. -/
def Entry.Good : Entry → Prop
  | .filler l => Filler l
  | .option name pad delim rest =>
    OptionName name ∧ (∀ c ∈ pad, c = ' ' ∨ c = '\t') ∧ (delim = '=' ∨ delim = ':') ∧
      '\n' ∉ rest

/-- A section: its name and its body. -/
structure Part where
  name : Text
  body : List Entry

/-- The lines of a section. -/
def Part.lines (p : Part) : List Text := ('[' :: p.name ++ [']']) :: p.body.map Entry.line

/-- A file. -/
structure Doc where
  pre : List Text
  parts : List Part

/-- The text of a file. -/
def Doc.text (d : Doc) : Text :=
  ((d.pre ++ d.parts.flatMap Part.lines).map (· ++ ['\n'])).flatten

/-- The options of a section, with the name of the section. -/
def Part.options (p : Part) : List ((Text × Text) × Text) :=
  p.body.filterMap fun
    | .filler _ => none
    | .option name _ _ rest => some ((p.name, name), rest)

/-- All options of a file, each with its section, its name and the text after the
delimiter. -/
def Doc.options (d : Doc) : List ((Text × Text) × Text) := d.parts.flatMap Part.options

/-- The names of the sections. -/
def Doc.names (d : Doc) : List Text := d.parts.map Part.name

/-- The section whose options hold in every section. -/
def everywhere : Text := "DEFAULT".toList

/-- A file that can be read: its lines are as above, no section but `DEFAULT` is there
twice, and no option is twice in the same section. -/
structure Doc.Good (d : Doc) : Prop where
  pre : ∀ l ∈ d.pre, Filler l
  name : ∀ p ∈ d.parts, p.name ≠ [] ∧ '\n' ∉ p.name
  body : ∀ p ∈ d.parts, ∀ e ∈ p.body, e.Good
  once : (d.names.filter (· ≠ everywhere)).Nodup
  unique : (d.options.map Prod.fst).Nodup

/-- A line that is none of these: at the margin, no comment, without delimiter, and not
headed by a name in brackets. -/
def Junk (l : Text) : Prop :=
  (∃ c, l.head? = some c ∧ Text.isSpace c = false ∧ c ≠ '#' ∧ c ≠ ';') ∧
    '=' ∉ l ∧ ':' ∉ l ∧ '\n' ∉ l ∧ ∀ n t, n ≠ [] → l ≠ '[' :: n ++ ']' :: t

/-- The file says `v` for option `k` of section `s`: in the section itself, or in
`DEFAULT` if the section is there and does not mention the option. -/
def Doc.Says (d : Doc) (s k v : Text) : Prop :=
  s ∈ d.names ∧ ∃ r, v = Text.strip r ∧
    (((s, k), r) ∈ d.options ∨
      ((∀ r', ((s, k), r') ∉ d.options) ∧ ((everywhere, k), r) ∈ d.options))

/-- The file says nothing for option `k` of section `s`. -/
def Doc.Silent (d : Doc) (s k : Text) : Prop := ∀ v, ¬ d.Says s k v

/-- What a text means where `%(name)s` stands for the value of another option and `%%`
for a percent sign; references may be nested to the given depth. -/
inductive Means (val : Text → Text → Prop) : ℕ → Text → Text → Prop
  | nil (n : ℕ) : Means val (n + 1) [] []
  | char {n : ℕ} {c : Char} {s r : Text} (hc : c ≠ '%') (h : Means val (n + 1) s r) :
      Means val (n + 1) (c :: s) (c :: r)
  | percent {n : ℕ} {s r : Text} (h : Means val (n + 1) s r) :
      Means val (n + 1) ("%%".toList ++ s) ('%' :: r)
  | plain {n : ℕ} {k w s r : Text} (hk : k ≠ [] ∧ ')' ∉ k) (hw : val k w) (hp : '%' ∉ w)
      (h : Means val (n + 1) s r) :
      Means val (n + 1) ("%(".toList ++ k ++ ")s".toList ++ s) (w ++ r)
  | nested {n : ℕ} {k w w' s r : Text} (hk : k ≠ [] ∧ ')' ∉ k) (hw : val k w)
      (hp : '%' ∈ w) (hw' : Means val n w w') (h : Means val (n + 1) s r) :
      Means val (n + 1) ("%(".toList ++ k ++ ")s".toList ++ s) (w' ++ r)

/-- Texts which can be given a meaning if the options they refer to have one: ordinary
characters, `%%` and references.  (The names of options hold no `%`.) -/
inductive Template : Text → Prop
  | nil : Template []
  | char {c : Char} {s : Text} (hc : c ≠ '%') (h : Template s) : Template (c :: s)
  | percent {s : Text} (h : Template s) : Template ("%%".toList ++ s)
  | ref {k s : Text} (hk : k ≠ [] ∧ ')' ∉ k ∧ '%' ∉ k) (h : Template s) :
      Template ("%(".toList ++ k ++ ")s".toList ++ s)

/-- The section in which each option is looked for. -/
def home (name : Text) : Text :=
  if name ∈ ["γ", "v_rin_on_c_s", "v_a_on_c_s", "c_s_on_v_k", "η_O", "η_H", "η_A"].map
    String.toList then "initial".toList else "config".toList

/-- The value of each option a file says nothing of (`config.py:121-176`), by name. -/
def fallbacks : List (String × String) :=
  [("start", "0"), ("stop", "5"), ("taylor_stop_angle", "0.001"), ("max_steps", "10000"),
   ("num_angles", "10000"), ("label", "default"), ("relative_tolerance", "1e-6"),
   ("absolute_tolerance", "1e-10"), ("jump_before_sonic", "None"),
   ("v_θ_sonic_crit", "None"), ("after_sonic", "None"), ("interp_range", "10"),
   ("sonic_interp_size", "None"), ("interp_slice", "-1000,-100"), ("η_derivs", "True"),
   ("nwalkers", "8"), ("iterations", "3"), ("threads", "1"), ("mcmc_vars", "v_r,v_a,v_k"),
   ("target_velocity", "0.9"), ("split_method", "v_θ_deriv"), ("use_taylor_jump", "True"),
   ("use_E_r", "False"), ("γ", "0.001"), ("v_rin_on_c_s", "1"), ("v_a_on_c_s", "1"),
   ("c_s_on_v_k", "0.03"), ("η_O", "0.001"), ("η_H", "0.0001"), ("η_A", "0.0005")]

/-- The options for which an empty text is `None`. -/
def mayBeEmpty : List String :=
  ["jump_before_sonic", "mcmc_vars", "v_θ_sonic_crit", "after_sonic", "sonic_interp_size",
   "interp_range", "interp_slice"]

end DiscSolver.ConfDoc
