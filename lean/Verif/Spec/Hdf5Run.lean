import Verif.Spec.EndToEnd

/-!
# Specification: what a row of a table and a command line ask for
-/

namespace DiscSolver.Hdf5Run

open CliSolve Cli EndToEnd

/-- The options a table need not have a column for, and the text assumed for them; for some
it is that nothing was said. -/
def assumed : List (String × Option String) :=
  [("η_derivs", some "True"), ("jump_before_sonic", none), ("use_taylor_jump", some "True"),
   ("mcmc_vars", none), ("v_θ_sonic_crit", none), ("after_sonic", none),
   ("sonic_interp_size", none), ("interp_range", some "10"),
   ("interp_slice", some "-1000,-100"), ("use_E_r", some "False")]

/-- The text a row has for an option, nothing if the row is too short: that of its column, the
assumed one if there is no column.  The label is the one of the command line. -/
def InRow (header row : List Text) (label : Text) (name : String) (v : Option Text) : Prop :=
  if name = "label" then v = some label
  else (∃ j : ℕ, header[j]? = some name.toList ∧ v = row[j]?) ∨
    (name.toList ∉ header ∧ ∃ t, (name, t) ∈ assumed ∧ v = t.map String.toList)

/-- The text asked for: that of the last `--override` of the option, or that of the row. -/
def RowAsked (header row : List Text) (given : List Occ) (name : String) (v : Option Text) :
    Prop :=
  match overrideGiven given name with
  | some w => v = some w.toList
  | none => InRow header row ((textGiven given "--label").getD "").toList name v

end DiscSolver.Hdf5Run
