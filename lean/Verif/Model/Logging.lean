import Verif.Model.Py

/-!
# Log handlers

`src/disc_solver/logging.py:19-73`.  `logbook` walks the handlers from the one pushed
last to the one pushed first: a handler whose level is above the record's is skipped, a
black hole (`NullHandler`) ends the walk, and a handler which handled the record ends it
unless it bubbles.  Wrapping in a thread changes neither level nor bubbling.
-/

namespace DiscSolver.Logging

/-- The levels offered on the command line, by increasing importance. -/
inductive Level where
  | debug | info | notice | warning | error | critical
deriving DecidableEq

/-- The number `logbook` gives a level. -/
def Level.num : Level → Nat
  | .debug => 1 | .info => 2 | .notice => 3 | .warning => 4 | .error => 5 | .critical => 6

/-- Where a handler writes to. -/
inductive Sink where
  | stderr
  | file (name : String)
deriving DecidableEq

/-- A handler.  `sink = none` is a `NullHandler`. -/
structure Handler where
  sink : Option Sink
  level : Level := .debug
  bubble : Bool := false

/-- The arguments `log_handler` looks at (`logging.py:19-35`); `none` is an option which
is not in the mapping.  Simplification: a level given is one of `LOG_LEVELS`. -/
structure Args where
  quiet : Bool := false
  verbose : Bool := false
  stderr_level : Option Level := some .notice
  log_file : Option String := none
  log_file_level : Option Level := some .debug

/-- The handler for the standard error (`logging.py:44-51`). -/
def stderrHandler (a : Args) : Handler :=
  if a.quiet then { sink := some .stderr, level := .error }
  else if a.verbose then { sink := some .stderr, level := .debug }
  else { sink := some .stderr, level := a.stderr_level.getD .notice, bubble := true }

/-- The handler for the log file (`logging.py:52-58`); an empty name counts as none. -/
def fileHandler (a : Args) : Handler :=
  match a.log_file with
  | none => { sink := none }
  | some n =>
    if n = "" then { sink := none }
    else { sink := some (.file n), level := a.log_file_level.getD .debug, bubble := true }

/-- `log_handler` (`logging.py:38-73`): the nested handlers, the first one pushed
first.  Simplification: the value of `DISC_SOLVER_DISABLE_THREADING` is valid. -/
def log_handler (a : Args) : List Handler :=
  [{ sink := none }, fileHandler a, stderrHandler a]

/-- `logbook`'s walk over the handlers, innermost first. -/
def walk (record : Level) : List Handler → List Sink
  | [] => []
  | h :: hs =>
    if record.num < h.level.num then walk record hs
    else
      match h.sink with
      | none => []
      | some s => s :: if h.bubble then walk record hs else []

/-- Where a record goes while `log_handler(args)` is active. -/
def written (a : Args) (record : Level) : List Sink := walk record (log_handler a).reverse

end DiscSolver.Logging
