/-!
# Python building blocks

Exceptions as values and insertion-ordered dictionaries.  These model the Python
language and its standard library, not files in `/repo`; the definitions that
use them cite the code they model.
-/

namespace DiscSolver

/-- The exception classes raised by the modelled code. -/
inductive PyErr where
  | SolverError
  | RuntimeError
  | ValueError
  | TypeError
  | KeyError
  | IndexError
  | AttributeError
  | NotImplementedError
  | FileExistsError
  | UnboundLocalError
  | CVODESolveFailed
  | ConfigParserError
  | CsvError
  | StopIteration
  | OSError
  | DiscSolverError
  | AnalysisError
  | LinAlgError
  | SystemExit
deriving DecidableEq, Repr

/-- A `dict`: key/value pairs in insertion order. -/
abbrev Dict (κ β : Type) := List (κ × β)

namespace Dict

variable {κ β : Type} [DecidableEq κ]

/-- `d.get(k)`; `none` is a missing key. -/
def get? : Dict κ β → κ → Option β
  | [], _ => none
  | (k, v) :: d, k' => if k = k' then some v else get? d k'

/-- `d[k]`. -/
def getItem (d : Dict κ β) (k : κ) : Except PyErr β :=
  match get? d k with
  | some v => .ok v
  | none => .error .KeyError

/-- `d[k] = v`: a present key keeps its place, a new one goes last. -/
def set : Dict κ β → κ → β → Dict κ β
  | [], k', v' => [(k', v')]
  | (k, v) :: d, k', v' => if k = k' then (k, v') :: d else (k, v) :: set d k' v'

/-- `del d[k]` for a present key. -/
def erase : Dict κ β → κ → Dict κ β
  | [], _ => []
  | (k, v) :: d, k' => if k = k' then d else (k, v) :: erase d k'

/-- `del d[k]`. -/
def delItem (d : Dict κ β) (k : κ) : Except PyErr (Dict κ β) :=
  match get? d k with
  | some _ => .ok (erase d k)
  | none => .error .KeyError

/-- `list(d)`. -/
def keys (d : Dict κ β) : List κ := d.map Prod.fst

/-- `d.update(e)` for a plain `dict`. -/
def update (d e : Dict κ β) : Dict κ β :=
  e.foldl (fun acc p => set acc p.1 p.2) d

end Dict

end DiscSolver
