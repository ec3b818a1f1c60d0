import Verif.Spec.CliSolve
import Verif.Model.CliDump

/-!
# Specification of the commands which write tables and text
-/

namespace DiscSolver.CliDump

open Cli CliSolve

variable {μ σ V : Type}

/-- Where the output is to go: the file given last, or `-`, the standard output. -/
def target (given : List Occ) : String := (textGiven given "--file").getD "-"

/-- The values given to options which take a word are words. -/
def Words (given : List Occ) : Prop :=
  ∀ name ∈ ["--file", "--log-file", "--log-file-level", "--stderr-level"],
    ∀ v, (name, v) ∈ given → ∃ s, v = .str s

/-- The pieces were added at the end of the target, and nothing else was changed. -/
def Appended {C : Type} (file : String) (pieces : List C) (d d' : Disk C) : Prop :=
  if file = "-" then d'.stdout = d.stdout ++ pieces ∧ ∀ f, d'.files f = d.files f
  else
    d'.stdout = d.stdout ∧ d'.files file = some ((d.files file).getD [] ++ pieces) ∧
      ∀ f, f ≠ file → d'.files f = d.files f

/-- The target holds the pieces and nothing else, and nothing else was changed; what was
printed before cannot be taken back. -/
def Replaced {C : Type} (file : String) (pieces : List C) (d d' : Disk C) : Prop :=
  if file = "-" then d'.stdout = d.stdout ++ pieces ∧ ∀ f, d'.files f = d.files f
  else
    d'.stdout = d.stdout ∧ d'.files file = some pieces ∧
      ∀ f, f ≠ file → d'.files f = d.files f

/-- The output can be opened. -/
def CanOpen (canOpen : String → Option PyErr) (file : String) : Prop :=
  file = "-" ∨ canOpen file = none

/-- A solution is found in a file: the file can be read, the name is one of its solutions
and that is there. -/
def Finds {μ σ : Type} (load : String → Except PyErr (Run μ σ)) (file range : String)
    (run : Run μ σ) (s : σ) : Prop :=
  load file = .ok run ∧ run.getSolutions (some range) = .ok (.soln s)

/-- The table of the inputs of one solution: a row, after a row of names if asked for. -/
def inputTable {σ V : Type} (e : Stats.Env σ V) (header : Bool) (s : σ) : List (List V) :=
  (if header then [SField.all.map fun f => e.str f.name] else []) ++
    [SField.all.map fun f => e.input s f]

/-- What is found in a file: the solution, or the exception. -/
def found (load : String → Except PyErr (Run μ σ)) (file range : String) :
    Except PyErr (Run μ σ × σ) :=
  match load file with
  | .error x => .error x
  | .ok run =>
    match run.getSolutions (some range) with
    | .error x => .error x
    | .ok (.soln s) => .ok (run, s)
    | .ok _ => .error .AttributeError

/-- The files a command about many files is to read. -/
def filesGiven (strip : String → String) (stdin solution_files : List String)
    (given : List Occ) : List String :=
  solution_files ++ if isGiven given "--with-stdin" then stdin.map strip else []

/-- A use of `ds-tocsv`, `ds-stats` or `ds-dumpcsv`, with what can be read then. -/
inductive Call (μ σ : Type) where
  | tocsv (load : String → Except PyErr (Run μ σ)) (soln_file soln_range : String)
      (given : List Occ)
  | stats (read : String → Except PyErr (Stats.StoredRun σ)) (stdin files : List String)
      (given : List Occ)
  | dumpcsv (read : String → Except PyErr (Stats.StoredRun σ)) (stdin files : List String)
      (given : List Occ)

/-- What it leaves behind. -/
noncomputable def Call.result {μ σ V : Type} (e : Stats.Env σ V)
    (canOpen : String → Option PyErr) (strip : String → String) (d : Disk (List V)) :
    Call μ σ → Result (List V)
  | .tocsv load f r g => ds_tocsv e canOpen load f r g d
  | .stats read i fs g => ds_stats e canOpen read strip i fs g d
  | .dumpcsv read i fs g => ds_dumpcsv e canOpen read strip i fs g d

/-- The disk after several uses. -/
noncomputable def history {μ σ V : Type} (e : Stats.Env σ V)
    (canOpen : String → Option PyErr) (strip : String → String) (calls : List (Call μ σ))
    (d : Disk (List V)) : Disk (List V) :=
  calls.foldl (fun d c => (c.result e canOpen strip d).disk) d

/-- The rows a use of `ds-tocsv` is to add to a file. -/
def rowsFor (e : Stats.Env σ V) (load : String → Except PyErr (Run μ σ)) (f : String)
    (c : String × String × List Occ) : List (List V) :=
  if target c.2.2 = f then
    match found load c.1 c.2.1 with
    | .error _ => []
    | .ok p => inputTable e (isGiven c.2.2 "--with-header") p.2
  else []

end DiscSolver.CliDump
