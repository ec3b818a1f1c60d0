import Mathlib.Data.Real.Basic
import Verif.Model.Py
import Verif.Model.Slice
import Verif.Model.Waves

/-!
# Array helpers

`src/disc_solver/utils.py:397-463`.  A float is `some x`, or `none` for NaN, where NaN
matters; comparisons with NaN are false.
-/

namespace DiscSolver

/-- A float that may be NaN. -/
abbrev Flt := Option ℝ

/-- `is_monotonically_increasing` (`utils.py:397-401`): `diff(arr) >= 0` everywhere. -/
noncomputable def is_monotonically_increasing (arr : List ℝ) : Bool :=
  open Classical in
  (arr.zipWith (fun a b => decide (0 ≤ b - a)) arr.tail).all id

/-- `isnan(a).argmin()`: the first position that is not NaN, or zero. -/
def nan_free_index (a : List Flt) : ℕ := (a.findIdx? (·.isSome)).getD 0

/-- `if np_any(mask): return mask.argmax()`, else `None`. -/
def any_argmax (mask : List Bool) : Option ℕ := mask.findIdx? id

/-- `first_closest_index` (`utils.py:404-426`).  An empty array makes `argmin` raise
`ValueError`. -/
noncomputable def first_closest_index (a : List Flt) (val : ℝ) :
    Except PyErr (Option ℕ) :=
  open Classical in
  if a = [] then .error .ValueError
  else
    let i := nan_free_index a
    match a[i]?.join with
    | none => .ok none
    | some x =>
      if x < val then
        .ok (any_argmax (a.map fun y => y.any fun y => decide (val ≤ y)))
      else if val < x then
        .ok (any_argmax (a.map fun y => y.any fun y => decide (y ≤ val)))
      else .ok (some i)

/-- Insertion into a list of samples ordered by abscissa, after equal ones (a stable
sort, as `interp1d` does with `argsort(kind="mergesort")`). -/
noncomputable def insertSample (p : ℝ × ℝ) : List (ℝ × ℝ) → List (ℝ × ℝ)
  | [] => [p]
  | q :: l => open Classical in if p.1 < q.1 then p :: q :: l else q :: insertSample p l

/-- The samples ordered by abscissa. -/
noncomputable def sortSamples : List (ℝ × ℝ) → List (ℝ × ℝ) :=
  fun l => l.foldl (fun acc p => insertSample p acc) []

/-- Linear interpolation in ordered samples: the first segment whose right end is at
or beyond `x`, as `interp1d` picks it by `searchsorted` and clipping. -/
noncomputable def interpSorted : List (ℝ × ℝ) → ℝ → Option ℝ
  | p :: q :: l, x => open Classical in
    if x ≤ q.1 ∨ l = [] then
      some (p.2 + (q.2 - p.2) / (q.1 - p.1) * (x - p.1))
    else interpSorted (q :: l) x
  | _, _ => none

/-- `interp1d(xs, ys)(x)` of scipy with its defaults: linear, sorted first,
`ValueError` outside the range. -/
noncomputable def interp1d (samples : List (ℝ × ℝ)) (x : ℝ) : Except PyErr ℝ :=
  let l := sortSamples samples
  match l.head?, l.getLast?, interpSorted l x with
  | some lo, some hi, some v =>
    open Classical in
    if x < lo.1 ∨ hi.1 < x then .error .ValueError else .ok v
  | _, _, _ => .error .ValueError

/-- `interp_for_value` (`utils.py:429-441`) without keyword arguments, for arrays
without NaN.  A missing `xs` entry is `IndexError`. -/
noncomputable def interp_for_value (xs ys : List ℝ) (y : ℝ) :
    Except PyErr (Option ℝ) :=
  match first_closest_index (ys.map some) y with
  | .error e => .error e
  | .ok none => .ok none
  | .ok (some i) =>
    match ys[i]?, xs[i]? with
    | some yi, some xi =>
      open Classical in
      if yi = y then .ok (some xi)
      else
        let m := i - 1
        let win := fun l : List ℝ => (l.drop m).take (i + 2 - m)
        match interp1d ((win ys).zip (win xs)) y with
        | .ok v => .ok (some v)
        | .error e => .error e
    | _, _ => .error .IndexError

/-- The dictionary built by `deduplicate_and_interpolate` (`utils.py:448-450`): for
each abscissa, in order of first appearance, the ordinates seen. -/
noncomputable def dedup_dict (x y : List ℝ) : Dict ℝ (List ℝ) :=
  open Classical in
  (x.zip y).foldl (fun d p => d.set p.1 ((d.get? p.1).getD [] ++ [p.2])) []

/-- The samples `deduplicate_and_interpolate` hands to `interp1d`
(`utils.py:451-453`).  Without samples unpacking the empty `zip` is `ValueError`. -/
noncomputable def deduplicate (x y : List ℝ) : Except PyErr (List (ℝ × ℝ)) :=
  match dedup_dict x y with
  | [] => .error .ValueError
  | d => .ok (d.map fun p => (p.1, p.2.foldl max (p.2.headD 0)))

/-- `numpy.searchsorted(xs, x)` for sorted `xs`. -/
noncomputable def searchsorted (xs : List ℝ) (x : ℝ) : ℕ :=
  open Classical in xs.findIdx (fun y => decide (x ≤ y))

/-- `get_closest_value_sorted` (`utils.py:457-463`). -/
noncomputable def get_closest_value_sorted {α : Type} (xs : List ℝ) (ys : List α)
    (x : ℝ) : Except PyErr α :=
  match ys[searchsorted xs x]? with
  | some v => .ok v
  | none => .error .IndexError

/-- The indices of `get_critical_point_indices`. -/
structure CritIndices where
  slow : Option ℕ
  sonic : Option ℕ
  alfven : Option ℕ
  fast : Option ℕ

/-- `get_critical_point_indices` (`src/disc_solver/critical_points.py:65-77`). -/
noncomputable def get_critical_point_indices (rows : List St) :
    Except PyErr CritIndices := do
  let slow ← first_closest_index (rows.map fun s => (get_mach_numbers s).slow) 1
  let sonic ← first_closest_index (rows.map fun s => (get_mach_numbers s).sonic) 1
  let alfven ← first_closest_index (rows.map fun s => (get_mach_numbers s).alfven) 1
  let fast ← first_closest_index (rows.map fun s => (get_mach_numbers s).fast) 1
  pure ⟨slow, sonic, alfven, fast⟩

/-- One entry of `get_all_sonic_points` (`critical_points.py:80-102`) for Mach
numbers without NaN. -/
noncomputable def sonic_angle (angles mach : List ℝ) : Except PyErr (Option ℝ) :=
  open Classical in
  if mach.any (fun m => decide (1 < m)) then interp_for_value angles mach 1
  else .ok none

end DiscSolver
