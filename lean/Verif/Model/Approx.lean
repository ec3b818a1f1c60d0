import Verif.Model.Stats

/-!
# Derivatives of a solution stored without internal data

`get_values` (`src/disc_solver/analyse/validate_plot.py:179-244`) reads the derivatives from
the internal data of a solution.  Without internal data it approximates them from the
solution.  Of its callers only `ds-stats` gets there: the two plots refuse such a solution
first (`validate_plot.py:108-109`, `hydro_check_plot.py:84-85`).
-/

namespace DiscSolver.Approx

open ValidatePlot (Cons Row rowsOf)

/-- Entry `i` of `numpy.gradient(y, x)` (`validate_plot.py:201`) for arrays of length `n`:
one-sided at the ends and the second order formula for unequal spacing between them.
Simplification: where two neighbouring angles are the same the code gets `inf` or NaN, and the
model a division by zero in `ℝ`. -/
noncomputable def gradientAt (x y : ℕ → ℝ) (n i : ℕ) : ℝ :=
  if i = 0 then (y 1 - y 0) / (x 1 - x 0)
  else if i + 1 = n then (y i - y (i - 1)) / (x i - x (i - 1))
  else
    let dx1 := x i - x (i - 1)
    let dx2 := x (i + 1) - x i;
    (-dx2 / (dx1 * (dx1 + dx2))) * y (i - 1) + (dx2 - dx1) / (dx1 * dx2) * y i +
      dx1 / (dx2 * (dx1 + dx2)) * y (i + 1)

/-- `validate_plot.py:200-203`: row `i` of the approximated derivatives, one entry for each
of `ODEIndex`. -/
noncomputable def derivAt (angles : List ℝ) (solution : List St) (i : ℕ) : St :=
  let g : (St → ℝ) → ℝ := fun p => gradientAt (fun k => angles.getD k 0)
    (fun k => p (solution.getD k St.zero)) angles.length i
  ⟨g (·.B_r), g (·.B_φ), g (·.B_θ), g (·.v_r), g (·.v_φ), g (·.v_θ), g (·.ρ), g (·.X),
    g (·.η_O), g (·.η_A), g (·.η_H)⟩

/-- `validate_plot.py:195-204`: the rows made from the solution.  `numpy.gradient` raises for
arrays of different lengths and for fewer than two entries. -/
noncomputable def approxRows (angles : List ℝ) (solution : List St) :
    Except PyErr (List Row) :=
  if angles.length ≠ solution.length ∨ angles.length < 2 then .error .ValueError
  else .ok ((List.range angles.length).map fun i =>
    ⟨angles.getD i 0, solution.getD i St.zero, derivAt angles solution i⟩)

/-- `get_values` (`validate_plot.py:179-232`). -/
noncomputable def get_values (internal : Option InternalData) (angles : List ℝ)
    (solution : List St) : Except PyErr (List Row) :=
  match internal with
  | some d => .ok (rowsOf d)
  | none => approxRows angles solution

/-- One of the entries of `compute_max_difference_in_equations` (`stats.py:66-93`). -/
noncomputable def max_difference (check : Cons → Row → ℝ) (c : Cons)
    (internal : Option InternalData) (angles : List ℝ) (solution : List St) :
    Except PyErr ℝ :=
  match get_values internal angles solution with
  | .error e => .error e
  | .ok rows => Stats.max_diff check c rows

end DiscSolver.Approx
