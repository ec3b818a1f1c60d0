import Verif.Spec.EndToEnd
import Verif.Model.SingleRun

/-!
# Specification: a file made by solving, and solving again, any number of times
-/

namespace DiscSolver.EndToEnd

open ConfDoc CliSolve Cli Runners SingleRun

/-- The file `p` among `fs` was made from the configuration file `d` by one `ds-soln` and
any number of `ds-resoln`, each of the file before it, all with the default method.
`given` is everything given on their command lines, in order, and `store` whether the last
one stored the internal data.  In between other things may happen to other files. -/
inductive History (C : Conv ℝ) (I : Tolerances → Integrator) (str : ℝ → String)
    (interp : List ℝ → List ℝ → Option (ℝ → ℝ)) (d : Doc) :
    List Occ → Bool → String → FS ℝ Made → Prop
  | soln (e : Env ℝ) (others : Bool → String → Runners.Solver ℝ Made)
      (read : String → Option Text) (config_file : String) (given : List Occ)
      (fs : FS ℝ Made) (n : ℕ) (p : String) :
      e.conv = C → read config_file = some d.text → CliSolve.Typed given →
      (textGiven given "--sonic-method").getD "single" = "single" →
      (ds_soln e (methods I str interp others) read config_file given fs).status = .ok n →
      (ds_soln e (methods I str interp others) read config_file given fs).printed = [p] →
      History C I str interp d given (!isGiven given "--no-store-internal") p
        (ds_soln e (methods I str interp others) read config_file given fs).fs
  | again (e : Env ℝ) (others : Bool → String → Runners.Solver ℝ Made)
      (given given' : List Occ) (store : Bool) (fs : FS ℝ Made) (n : ℕ)
      (p range q : String) :
      History C I str interp d given store p fs →
      e.conv = C → CliSolve.Typed given' →
      (textGiven given' "--sonic-method").getD "single" = "single" →
      (ds_resoln e Made.solution_input (methods I str interp others) p range given'
        fs).status = .ok n →
      (ds_resoln e Made.solution_input (methods I str interp others) p range given'
        fs).printed = [q] →
      History C I str interp d (given ++ given') (!isGiven given' "--no-store-internal") q
        (ds_resoln e Made.solution_input (methods I str interp others) p range given' fs).fs
  | elsewhere (given : List Occ) (store : Bool) (p : String) (fs fs' : FS ℝ Made) :
      History C I str interp d given store p fs → fs'.get? p = fs.get? p →
      History C I str interp d given store p fs'

end DiscSolver.EndToEnd
