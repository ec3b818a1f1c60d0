import Verif.Props.FastCrosser
import Verif.Props.StepRun

/-!
# Specification: the attempts of the fast crosser

`Moves` and `Stuck` are the steps of the search over `γ` (`Props/StepRun`, C105), `Accepted`
is the solution which ends it (`Spec/StepRun`), and `velocity` are the velocities of the outer
search for given qualities (`Props/FastCrosser`, C51).
-/

namespace DiscSolver.CrosserRun

open Runners SingleRun StepRun

/-- The solutions `ms` of a search over `γ` from the input `s`, whose `γ`s were `γs`. -/
structure Searched (ops : Stepper.Ops ℝ) (split : Stepper.Splitter)
    (solve : SolutionInput ℝ → Except PyErr Made) (s : SolutionInput ℝ) (γ₀ : ℝ)
    (γs : List ℝ) (ms : List Made) : Prop where
  length : γs.length = ms.length
  first : ∀ γ, γs.head? = some γ → γ = γ₀
  few : ms.length ≤ 100
  solved : ∀ (k : ℕ) m γ, ms[k]? = some m → γs[k]? = some γ →
    solve (Function.update s .γ (.float γ)) = .ok m
  moves : Moves ops split γ₀ γs ms
  rejected : ∀ m ∈ ms.dropLast, ¬ Accepted m.out

/-- The search ended by itself: at an acceptable solution, because `γ` could not be changed,
or because too many were tried. -/
def Finished (ops : Stepper.Ops ℝ) (split : Stepper.Splitter) (γ₀ : ℝ) (γs : List ℝ)
    (ms : List Made) : Prop :=
  (∃ m, ms.getLast? = some m ∧ Accepted m.out) ∨ Stuck ops split γ₀ γs ms ∨
    (21 ≤ ms.length ∧ ∀ m ∈ ms, ¬ Accepted m.out)

/-- The search ended because the next `γ` has no solution. -/
def Failed (ops : Stepper.Ops ℝ) (split : Stepper.Splitter)
    (solve : SolutionInput ℝ → Except PyErr Made) (s : SolutionInput ℝ) (γ₀ : ℝ)
    (γs : List ℝ) (ms : List Made) : Prop :=
  ∃ γ, (γs ++ [γ]).head? = some γ₀ ∧ Moves ops split γ₀ (γs ++ [γ]) ms ∧
    solve (Function.update s .γ (.float γ)) = .error .SolverError ∧
    ∀ m ∈ ms, ¬ Accepted m.out

/-- The input `s` with this velocity and this `γ`. -/
def at' (s : SolutionInput ℝ) (v γ : ℝ) : SolutionInput ℝ :=
  Function.update (Function.update s .v_rin_on_c_s (.float v)) .γ (.float γ)

/-- The same, to ninety degrees with 900000 angles. -/
noncomputable def far (s : SolutionInput ℝ) (v γ : ℝ) : SolutionInput ℝ :=
  Function.update (Function.update (at' s v γ) .stop (.float 90)) .num_angles (.int 900000)

/-- One attempt of the crosser: its velocity, the `γ` its search starts with, the `γ`s and
the solutions of that search, and the solution to ninety degrees, if the search did not
fail. -/
structure Attempt where
  v : ℝ
  γ₀ : ℝ
  γs : List ℝ
  searched : List Made
  last : Option Made

namespace Attempt

/-- What is stored: the solution to ninety degrees twice. -/
def stored (a : Attempt) : List Made :=
  a.searched ++ match a.last with
    | some m => [m, m]
    | none => []

/-- How an attempt is judged: by the largest angle reached, zero if its search failed. -/
noncomputable def quality (a : Attempt) : Flt :=
  match a.last with
  | some m => m.out.angles.max?
  | none => some 0

/-- The last `γ` of the search. -/
def last_γ (a : Attempt) : ℝ := a.γs.getLast?.getD a.γ₀

/-- The `γ` the next attempt starts with. -/
def next_γ (a : Attempt) : ℝ := if a.last.isSome then a.last_γ else a.γ₀

/-- The attempt did what it should for the input `s`. -/
def Good (ops : Stepper.Ops ℝ) (split : Stepper.Splitter)
    (solve : SolutionInput ℝ → Except PyErr Made) (s : SolutionInput ℝ) (a : Attempt) : Prop :=
  Searched ops split solve (at' s a.v a.γ₀) a.γ₀ a.γs a.searched ∧
  match a.last with
  | some m => a.searched ≠ [] ∧ Finished ops split a.γ₀ a.γs a.searched ∧
      solve (far s a.v a.last_γ) = .ok m
  | none => Failed ops split solve (at' s a.v a.γ₀) a.γ₀ a.γs a.searched

end Attempt

/-- The attempts of a crosser which starts with the input `s`, whose velocity is `v₀` and
whose `γ` is `γ₀`. -/
structure Crossing (ops : Stepper.Ops ℝ) (split : Stepper.Splitter)
    (solve : SolutionInput ℝ → Except PyErr Made) (s : SolutionInput ℝ) (v₀ γ₀ : ℝ)
    (as : List Attempt) : Prop where
  /-- at least one, at most a thousand -/
  some : as ≠ []
  few : as.length ≤ 1000
  /-- every attempt did what it should -/
  good : ∀ a ∈ as, a.Good ops split solve s
  /-- where the searches start -/
  first : ∀ a, as.head? = .some a → a.γ₀ = γ₀
  next : ∀ (k : ℕ) a b, as[k]? = .some a → as[k + 1]? = .some b → b.γ₀ = a.next_γ
  /-- the velocities are those of the outer search, for the largest angles reached -/
  velocities : ∀ (k : ℕ) a, as[k]? = .some a →
    FastCrosser.velocity (0.01 * v₀) v₀ (fun i => (as[i]?).bind Attempt.quality) k = .some a.v
  /-- and it went on as long as it could -/
  whole : as.length = 1000 ∨
    FastCrosser.velocity (0.01 * v₀) v₀ (fun i => (as[i]?).bind Attempt.quality) as.length = none

/-- What solving for these numbers gives: `SolverError` if there is no disc, otherwise
what the solution from its conditions at the midplane gives. -/
noncomputable def solveFor (I : Integrator) (str : ℝ → String)
    (interp : List ℝ → List ℝ → Option (ℝ → ℝ)) (o : SolveOpts) (st : Bool)
    (s : SolutionInput ℝ) (inp : NumInput) : Except PyErr Made :=
  match define_conditions inp with
  | none => .error .SolverError
  | some c => (solution I str interp o c { store_internal := st }).result.map fun out =>
      { solution_input := s, initial_conditions := c, out := out }

/-- What a crosser finds at the velocity `v` for these numbers, if its search over `γ` ends
at once: the solution to ninety degrees, if the first one is acceptable, or nothing, if there
is no disc. -/
inductive Outcome (I : Integrator) (str : ℝ → String)
    (interp : List ℝ → List ℝ → Option (ℝ → ℝ)) (o : SolveOpts) (st : Bool) (inp : NumInput)
    (v : ℝ) : Option SolutionOut → Prop
  | disc {c c' : Conditions} {out out' : SolutionOut} :
      define_conditions { inp with v_rin_on_c_s := v } = some c →
      (solution I str interp o c { store_internal := st }).result = .ok out → Accepted out →
      define_conditions { inp with v_rin_on_c_s := v, stop := 90, num_angles := 900000 } =
        some c' →
      (solution I str interp o c' { store_internal := st }).result = .ok out' →
      Outcome I str interp o st inp v (some out')
  | nothing : define_conditions { inp with v_rin_on_c_s := v } = none →
      Outcome I str interp o st inp v none

/-- How far it got. -/
noncomputable def reached : Option SolutionOut → Flt
  | some out => out.angles.max?
  | none => some 0

end DiscSolver.CrosserRun
