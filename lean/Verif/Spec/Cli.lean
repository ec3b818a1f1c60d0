import Verif.Model.Cli

/-!
# Specification of command lines

An option means the value given last or its default; a flag means whether it is given.
The figure is titled, styled, saved and shown as asked.
-/

namespace DiscSolver.Cli

/-- The value an option was given last. -/
def lastGiven (given : List Occ) (name : String) : Option Val :=
  ((given.filter (·.1 = name)).getLast?).map (·.2)

/-- The option is on the command line. -/
def isGiven (given : List Occ) (name : String) : Bool := given.any (·.1 = name)

/-- What an argument of the drawing function is taken from: an option with a value, a
flag which sets it, a flag which clears it, or nothing (a constant). -/
inductive Source where
  | option (name : String) (default : Val)
  | set (name : String)
  | clear (name : String)
  | const (v : Val)
  /-- whether the run has the extra variable, from the file -/
  | run

/-- Its value for a command line, and a run with or without the extra variable. -/
def Source.value (given : List Occ) (use_E_r : Bool) : Source → Val
  | .option name default => (lastGiven given name).getD default
  | .set name => .bool (isGiven given name)
  | .clear name => .bool (!isGiven given name)
  | .const v => v
  | .run => .bool use_E_r

/-- The value of an option, as a figure size. -/
def figsize : Val → Val
  | .none => .figargs none
  | v => .figargs (some v)

/-- The figure a user expects: titled as asked, or with file and solution; in the style
asked for; saved exactly if there is a file to save to, and shown exactly if asked to. -/
def expectedFigure {α : Type} (contents : α) (title : Val) (given : List Occ) : Figure α where
  contents := contents
  title := ((lastGiven given "--title").getD .none).orElse title
  style := (lastGiven given "--style").getD (.str "bmh")
  figargs := figsize ((lastGiven given "--figsize").getD .none)
  version := !isGiven given "--no-show-version"
  saved := (lastGiven given "--filename").getD .none
  shown := isGiven given "--show"
  closed := true

/-- The three options all plots but the flow plot have. -/
def common : List (String × Source) :=
  [("linestyle", .option "--linestyle" (.str "-")), ("start", .option "--start" (.num 0)),
   ("stop", .option "--stop" (.num 90))]

/-- The arguments made of their sources. -/
def arguments (given : List Occ) (use_E_r : Bool) (l : List (String × Source)) :
    Dict String Val :=
  l.map fun p => (p.1, p.2.value given use_E_r)

/-- What a command about one solution should do: open the file, find the solution and
draw it with the arguments, which the user sees as a figure.  Errors are passed on. -/
def expected {α : Type} (load : String → Except PyErr RunHead)
    (draw : RunHead → Val → Dict String Val → Except PyErr α) (file range : String)
    (given : List Occ) (l : List (String × Source)) : Except PyErr (Figure α) :=
  match load file with
  | .error e => .error e
  | .ok run =>
    match draw run (.str range) (arguments given run.use_E_r l) with
    | .error e => .error e
    | .ok contents => .ok (expectedFigure contents (.str (file ++ ":" ++ range)) given)

/-- The pairs of file and solution given with `--runs`, in their order. -/
def runs (given : List Occ) : List (String × String) :=
  given.flatMap fun p => if p.1 = "--runs" then (match p.2 with | .pairs l => l | _ => []) else []

/-- What a command about several solutions should do. -/
def expectedMany {α : Type} (draw : List (String × String) → Dict String Val → Except PyErr α)
    (given : List Occ) (l : List (String × Source)) : Except PyErr (Figure α) :=
  match draw (runs given) (arguments given false l) with
  | .error e => .error e
  | .ok contents => .ok (expectedFigure contents .none given)

/-- What a command about all solutions of a file should do; `sorted` is how their order
is found and `select` how those to draw are. -/
def expectedFile {α σ : Type} (load : String → Except PyErr (List (String × σ)))
    (sorted : List (String × σ) → Except PyErr (List (String × σ)))
    (select : Val → List (String × σ) → Except PyErr (List (String × σ)))
    (draw : List (String × σ) → Dict String Val → Except PyErr α)
    (title : String) (file : String) (given : List Occ) (filter : Source)
    (l : List (String × Source)) : Except PyErr (Figure α) :=
  match load file with
  | .error e => .error e
  | .ok stored =>
    match sorted stored with
    | .error e => .error e
    | .ok solutions =>
      match select (filter.value given false) solutions with
      | .error e => .error e
      | .ok chosen =>
        match draw chosen (("figargs", figsize ((lastGiven given "--figsize").getD .none)) ::
            arguments given false l) with
        | .error e => .error e
        | .ok contents => .ok (expectedFigure contents (.str title) given)

end DiscSolver.Cli
