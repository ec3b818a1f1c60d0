import Verif.Model.Text

/-!
# What a configuration file can hold

The format keeps a value of several lines by indenting all but the first.  Blanks at the
ends of a line, lines which look like comments and blank lines at the end are not kept.
-/

namespace DiscSolver.Cfg

open Text hiding none

/-- A line which looks like a comment. -/
def IsComment (l : Text) : Prop := (strip l).head? = some '#' ∨ (strip l).head? = some ';'

instance (l : Text) : Decidable (IsComment l) := by unfold IsComment; infer_instance

/-- What is kept of a value with the lines `a :: ls`. -/
def keptLines (a : Text) (ls : List Text) : List Text :=
  strip a :: (ls.filter fun l => ¬ IsComment l).map strip

/-- What is kept of a value. -/
def held (v : Text) : Text :=
  match v.splitOn '\n' with
  | [] => []
  | a :: ls => rstrip (['\n'].intercalate (keptLines a ls))

end DiscSolver.Cfg
