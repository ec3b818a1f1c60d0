import Verif.Spec.Cli
import Verif.Model.CliSolve

/-!
# Specification of the command lines of the solvers
-/

namespace DiscSolver.CliSolve

open Cli

/-- The string an option was given last. -/
def textGiven (given : List Occ) (name : String) : Option String :=
  match lastGiven given name with
  | some (.str s) => some s
  | _ => none

/-- The fields and values given with `--override`, in their order. -/
def overridesGiven (given : List Occ) : List (String × String) :=
  given.flatMap fun p =>
    if p.1 = "--override" then (match p.2 with | .pairs l => l | _ => []) else []

/-- The value given last for a field with `--override`. -/
def overrideGiven (given : List Occ) (field : String) : Option String :=
  (((overridesGiven given).filter (·.1 = field)).getLast?).map (·.2)

/-- The options which take a word. -/
def wordOptions : List String :=
  ["--log-file", "--log-file-level", "--stderr-level", "--sonic-method", "--output-file",
    "--output-dir", "--label"]

/-- The values are of the types `argparse` gives: a word, or a pair of words. -/
def Typed (given : List Occ) : Prop :=
  (∀ name ∈ wordOptions, ∀ v, (name, v) ∈ given → ∃ s, v = .str s) ∧
  ∀ v, ("--override", v) ∈ given → ∃ p, v = .pairs [p]

/-- The names of the levels of the log. -/
def levelNames : List (String × Logging.Level) :=
  [("critical", .critical), ("error", .error), ("warning", .warning), ("notice", .notice),
   ("info", .info), ("debug", .debug)]

/-- How much is to be logged where. -/
def logGiven (given : List Occ) : Logging.Args where
  quiet := isGiven given "--quiet"
  verbose := isGiven given "--verbose"
  stderr_level := levelNames.lookup ((textGiven given "--stderr-level").getD "notice")
  log_file := textGiven given "--log-file"
  log_file_level := levelNames.lookup ((textGiven given "--log-file-level").getD "debug")

end DiscSolver.CliSolve
