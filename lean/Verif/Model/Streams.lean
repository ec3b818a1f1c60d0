import Verif.Model.Py

/-!
# Streams and worker pools

`src/disc_solver/utils.py:329-348` and `:382-394`.  A context manager written with
`contextmanager` and no `try` around its `yield` runs what follows the `yield` only
when the body of the `with` statement returns: an exception in the body is thrown
into the generator at the `yield` and leaves it at once.
-/

namespace DiscSolver.Streams

/-- What `open_or_stream` can be given: a name, `'-'` included, or an open stream. -/
inductive Target where
  | name (s : String)
  | stream (h : Nat)

/-- The streams of the process which are open.  Stream `0` is `stdout`. -/
structure World where
  isOpen : Nat → Bool
  /-- The number of the next file opened. -/
  next : Nat

/-- The stream `h` closed. -/
def World.close (w : World) (h : Nat) : World :=
  { w with isOpen := fun k => if k = h then false else w.isOpen k }

/-- A new file opened. -/
def World.opened (w : World) : World :=
  { isOpen := fun k => if k = w.next then true else w.isOpen k, next := w.next + 1 }

/-- The body of a `with` statement: it may open and close streams, return or raise. -/
abbrev Body (α : Type) := Nat → World → World × Except PyErr α

/-- `with open_or_stream(filename, …) as f: body` (`utils.py:329-348`).  `canOpen` is
the outcome of the builtin `open`, which may raise.  A stream counts as closed when
`close` was called; what the garbage collector closes later is not modelled. -/
def open_or_stream {α : Type} (canOpen : String → Option PyErr) (t : Target)
    (body : Body α) (w : World) : World × Except PyErr α :=
  match t with
  | .stream h => body h w
  | .name s =>
    if s = "-" then body 0 w
    else
      match canOpen s with
      | some e => (w, .error e)
      | none =>
        let r := body w.next w.opened
        match r.2 with
        | .ok a => (r.1.close w.next, .ok a)
        | .error e => (r.1, .error e)

/-- What happens to a worker pool. -/
inductive PoolEvent where
  | created | body | closed | joined
deriving DecidableEq

/-- `with nicer_mp_pool(…) as pool: body` (`utils.py:382-394`): the events and the
outcome.  `start` is the outcome of `Pool(…)`.  When that raises, `pool` is unbound in
the `finally` clause. -/
def nicer_mp_pool {α : Type} (start : Option PyErr) (body : Except PyErr α) :
    List PoolEvent × Except PyErr α :=
  match start with
  | some _ => ([], .error .UnboundLocalError)
  | none => ([.created, .body, .closed, .joined], body)

end DiscSolver.Streams
