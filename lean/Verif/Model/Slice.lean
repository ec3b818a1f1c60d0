import Mathlib.Data.List.Basic
import Mathlib.Algebra.Order.Group.Int

/-!
# Python slices

`slice` objects and indexing with them (Python language, `slice.indices`).
-/

namespace DiscSolver

/-- `slice(start, stop, step)`. -/
structure PySlice where
  start : Option Int := none
  stop : Option Int := none
  step : Option Int := none
deriving DecidableEq, Repr

namespace PySlice

/-- One bound of `slice.indices(n)`. -/
def clamp (n : ℕ) (lower upper : Int) : Int → Int := fun x =>
  if x < 0 then max (x + n) lower else min x upper

/-- The positions a slice selects from a sequence of length `n`; `none` for a
zero step (`ValueError`). -/
def positions (s : PySlice) (n : ℕ) : Option (List Int) :=
  let step := s.step.getD 1
  if step = 0 then none
  else
    let lower : Int := if step < 0 then -1 else 0
    let upper : Int := if step < 0 then n - 1 else n
    let start := (s.start.map (clamp n lower upper)).getD (if step < 0 then upper else lower)
    let stop := (s.stop.map (clamp n lower upper)).getD (if step < 0 then lower else upper)
    let count : ℕ :=
      if step < 0 then ((start - stop + (-step) - 1) / (-step)).toNat
      else ((stop - start + step - 1) / step).toNat
    some ((List.range count).map fun (i : ℕ) => start + i * step)

/-- `xs[s]`; `none` for a zero step. -/
def index {α : Type} (s : PySlice) (xs : List α) : Option (List α) :=
  (s.positions xs.length).map fun ps => ps.filterMap fun p => xs[p.toNat]?

end PySlice

end DiscSolver
