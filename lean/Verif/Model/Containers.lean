import Verif.Model.Py
import Std.Data.String.ToInt

/-!
# Containers

`src/disc_solver/file_format/_containers.py`: `Problems`, `Solutions`, `Run`, and
`utils.get_solutions`.
-/

namespace DiscSolver

/-! ## Problems -/

/-- A key given to a `Problems` object: an angle, or text. -/
inductive ProblemKey (α : Type) where
  | num (x : α)
  | text (s : String)

/-- `str(key)`; `str` is how Python prints a number. -/
def ProblemKey.str {α : Type} (str : α → String) : ProblemKey α → String
  | .num x => str x
  | .text s => s

/-- `Problems._problems` (`_containers.py:348-354`). -/
abbrev Problems := Dict String (List String)

namespace Problems

variable {α : Type} (str : α → String)

/-- `Problems.__getitem__` (`_containers.py:356-357`): the messages and the new
state (the `defaultdict` inserts an empty list under a missing key). -/
def getItem (p : Problems) (k : ProblemKey α) : List String × Problems :=
  match Dict.get? p (k.str str) with
  | some l => (l, p)
  | none => ([], Dict.set p (k.str str) [])

/-- `p[k].append(msg)` as `rhs_equation` uses it (`solution.py:138,143`): the list
returned by `__getitem__` is the stored one. -/
def append (p : Problems) (k : ProblemKey α) (msg : String) : Problems :=
  Dict.set p (k.str str) ((getItem str p k).1 ++ [msg])

/-- `Problems.__setitem__` with a list of messages (`_containers.py:362-363`). -/
def setItem (p : Problems) (k : ProblemKey α) (msgs : List String) : Problems :=
  Dict.set p (k.str str) ((getItem str p k).1 ++ msgs)

/-- `Problems.__delitem__` (`_containers.py:365-366`): the key is not converted
with `str`, and a number is never equal to a stored (text) key. -/
def delItem (p : Problems) : ProblemKey α → Except PyErr Problems
  | .num _ => .error .KeyError
  | .text s => Dict.delItem p s

/-- `key in problems`: `collections.abc.Mapping.__contains__` calls
`__getitem__` and looks for a `KeyError`, which never comes. -/
def contains (p : Problems) (k : ProblemKey α) : Bool × Problems :=
  (true, (getItem str p k).2)

/-- `MutableMapping.update(other)` (`for key in other: self[key] = other[key]`);
stored keys are text. -/
def update (p q : Problems) : Problems :=
  q.foldl (fun acc e => setItem (α := Empty) Empty.elim acc (.text e.1) e.2) p

/-- `problems = Problems(**p); problems.update(q)` (`_containers.py:477-478`). -/
def join (p q : Problems) : Problems := update (update [] p) q

end Problems

/-! ## Solutions -/

/-- `Solutions._solutions` (`_containers.py:509-515`).  `OnDemandWrapper`s (lazy
loading) are transparent: a stored value is the value it loads. -/
abbrev Solutions (σ : Type) := Dict String σ

namespace Solutions

variable {σ : Type}

/-- `Solutions._get_next_index` (`_containers.py:570-577`). -/
def getNextIndex (d : Solutions σ) : Except PyErr String :=
  if d.length.repr ∉ d.keys then .ok d.length.repr
  else .error .RuntimeError

/-- `Solutions.add_solution` (`_containers.py:562-568`): the index and the new
contents. -/
def add (d : Solutions σ) (s : σ) : Except PyErr (String × Solutions σ) := do
  let index ← getNextIndex d
  pure (index, Dict.set d index s)

/-- `sorted(list(self), key=int)` (`_containers.py:583`); `ValueError` if a key is
not a number.  Python's `int` also accepts surrounding blanks and a leading `+`;
such keys are never produced by `add`. -/
def sortedKeys (d : Solutions σ) : Except PyErr (List String) :=
  if d.keys.all (fun k => k.toInt?.isSome) then
    .ok (d.keys.mergeSort (fun a b => decide (a.toInt?.getD 0 ≤ b.toInt?.getD 0)))
  else .error .ValueError

/-- `Solutions.get_last_solution` (`_containers.py:579-583`). -/
def getLast (d : Solutions σ) : Except PyErr σ := do
  let ks ← sortedKeys d
  match ks.getLast? with
  | none => .error .IndexError
  | some k => Dict.getItem d k

end Solutions

/-! ## Runs -/

/-- `Run._final_solution`: a `DelayedContainer`, or what was assigned or loaded
(`None` for a file without one). -/
inductive Final (σ : Type) where
  | delayed
  | value (s : Option σ)

/-- The parts of `Run` that change (`_containers.py:601-620`), and the ones
`create_shock_run` replaces.  The remaining attributes are `meta`. -/
structure Run (μ σ : Type) where
  info : μ
  final : Final σ := .delayed
  solutions : Solutions σ := []
  is_post_shock_only : Bool := false
  based_on_filename : Option String := none
  based_on_solution : Option String := none

namespace Run

variable {μ σ : Type}

/-- Setting `Run.final_solution` (`_containers.py:625-631`).  Writing to the file
(`write_container`) is not modelled. -/
def setFinal (r : Run μ σ) (s : σ) : Except PyErr (Run μ σ) :=
  match r.final with
  | .delayed => .ok { r with final := .value (some s) }
  | .value _ => .error .RuntimeError

/-- `Run.finalise` (`_containers.py:633-640`). -/
def finalise (r : Run μ σ) : Except PyErr (Run μ σ) :=
  match r.final with
  | .delayed => do
    let s ← r.solutions.getLast
    .ok { r with final := .value (some s) }
  | .value _ => .ok r

/-- `run.solutions.add_solution(s)`. -/
def addSolution (r : Run μ σ) (s : σ) : Except PyErr (String × Run μ σ) := do
  let (k, d) ← r.solutions.add s
  pure (k, { r with solutions := d })

/-- `Run.create_shock_run` (`_containers.py:642-650`). -/
def createShockRun (r : Run μ σ) (filename solution_name : String) : Run μ σ :=
  { r with
    solutions := [], final := .delayed, is_post_shock_only := true,
    based_on_filename := some filename, based_on_solution := some solution_name }

/-- What `get_solutions` can return. -/
inductive Found (σ : Type) where
  /-- a solution -/
  | soln (s : σ)
  /-- `None` -/
  | none
  /-- the placeholder of a run in progress -/
  | placeholder

/-- `run.final_solution` (`_containers.py:618-623`). -/
def finalSolution (r : Run μ σ) : Found σ :=
  match r.final with
  | .delayed => .placeholder
  | .value Option.none => .none
  | .value (some s) => .soln s

/-- `utils.get_solutions` (`utils.py:165-177`). -/
def getSolutions (r : Run μ σ) (soln_range : Option String) :
    Except PyErr (Found σ) :=
  match soln_range with
  | Option.none => (Dict.getItem r.solutions "0").map .soln
  | some range =>
    if range = "latest" then
      match r.final with
      | .value Option.none =>
        -- `str(max(int(soln) for soln in run.solutions))`
        if r.solutions.keys.all (fun k => k.toInt?.isSome) then
          match (r.solutions.keys.map (fun k => k.toInt?.getD 0)).max? with
          | Option.none => .error .ValueError
          | some m => (Dict.getItem r.solutions (toString m)).map .soln
        else .error .ValueError
      | _ => .ok r.finalSolution
    else if range = "final" then .ok r.finalSolution
    else (Dict.getItem r.solutions range).map .soln

end Run

end DiscSolver
