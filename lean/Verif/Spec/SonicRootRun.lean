import Verif.Model.SingleRun
import Verif.Model.SonicRoot

/-!
# Specification: what an evaluation of the sonic-root objective computes
-/

namespace DiscSolver.SonicRootRun

open SonicRoot (Guess)
open SingleRun Runners

/-- The state at the sonic point which a guess describes: unit polar velocity, what was
guessed, and the diffusivities of the midplane; nothing if a part of the guess is not a
number. -/
noncomputable def sonicState (midplane : St) (g : Guess) : Option St := do
  let B_r ← g.var .B_r
  let B_φ ← g.var .B_φ
  let B_θ ← g.var .B_θ
  let v_r ← g.var .v_r
  let v_φ ← g.var .v_φ
  let log_ρ ← g.var .log_ρ
  let X ← g.var .B_φ_prime
  pure { B_r, B_φ, B_θ, v_r, v_φ, v_θ := 1, ρ := Real.exp log_ρ, X,
         η_O := midplane.η_O, η_A := midplane.η_A, η_H := midplane.η_H }

/-- The first guess: the angle where the midplane part ends, over 0.9, and where the line
through its last two rows reaches unit polar velocity, the logarithm for the density; there is
nothing to guess if the last step has no change of polar velocity. -/
def FirstGuess (midplane : SolutionOut) (g : Guess) : Prop :=
  ∃ (front : List St) (p q : St) (a : ℝ), midplane.solution = front ++ [p, q] ∧
    midplane.angles.getLast? = some a ∧ g.θ_sonic = a / 0.9 ∧
    (p.v_θ = q.v_θ → ∀ v, v ≠ .θ_sonic → g.var v = none) ∧
    ∀ t, q.v_θ + t * (q.v_θ - p.v_θ) = 1 → p.v_θ ≠ q.v_θ →
      g.var .v_φ = some (q.v_φ + t * (q.v_φ - p.v_φ)) ∧
      g.var .v_r = some (q.v_r + t * (q.v_r - p.v_r)) ∧
      g.var .B_θ = some (q.B_θ + t * (q.B_θ - p.B_θ)) ∧
      g.var .B_r = some (q.B_r + t * (q.B_r - p.B_r)) ∧
      g.var .B_φ = some (q.B_φ + t * (q.B_φ - p.B_φ)) ∧
      g.var .B_φ_prime = some (q.X + t * (q.X - p.X)) ∧
      (0 < p.ρ → 0 < q.ρ →
        g.var .log_ρ = some (Real.log q.ρ + t * (Real.log q.ρ - Real.log p.ρ)))

/-- The integration from the midplane to the target velocity. -/
noncomputable def fromMidplane (I : Integrator) (str : ℝ → String)
    (interp : List ℝ → List ℝ → Option (ℝ → ℝ)) (o : SolveOpts) (store_internal : Bool)
    (target : ℝ) (c : Conditions) : Except PyErr SolutionOut :=
  (solution I str interp o c
    { root_func := some (velocity_stop target), root_func_args := some 1,
      store_internal }).result

/-- The integration from the sonic point, at the guessed angle, back to the angle `stop`
where the midplane part ended, without a Taylor start. -/
noncomputable def fromSonic (I : Integrator) (str : ℝ → String)
    (interp : List ℝ → List ℝ → Option (ℝ → ℝ)) (o : SolveOpts) (store_internal : Bool)
    (c : Conditions) (stop : ℝ) (g : Guess) (s : St) : Except PyErr SolutionOut :=
  (solution I str interp o { c with init_con := s }
    { with_taylor := false
      modified_initial_conditions := some
        { c with init_con := s, angles := linspace g.θ_sonic stop c.angles.length }
      store_internal }).result

/-- Two parts in one: first the midplane part, then the sonic part from its end. -/
def both (midplane sonic : SolutionOut) : SolutionOut :=
  { flag := sonic.flag
    angles := midplane.angles ++ sonic.angles.reverse
    solution := midplane.solution ++ sonic.solution.reverse
    internal_data :=
      match midplane.internal_data, sonic.internal_data with
      | none, none => none
      | none, some s => some s.flip
      | some m, none => some m
      | some m, some s => some (m.add s.flip)
    t_roots := midplane.t_roots
    y_roots := midplane.y_roots
    is_post_shock_only := false }

/-- An integration failed if its flag is negative. -/
def Failed : StatusFlag → Prop
  | .TOO_CLOSE => True
  | .OTHER c => c < 0
  | _ => False

/-- An evaluation at a guess does not raise: nothing comes of the guess, or the sonic part
failed. -/
def Quiet (I : Integrator) (str : ℝ → String)
    (interp : List ℝ → List ℝ → Option (ℝ → ℝ)) (o : SolveOpts) (store_internal : Bool)
    (c : Conditions) (stop : ℝ) (g : Guess) : Prop :=
  ∀ s, sonicState c.init_con g = some s →
    fromSonic I str interp o store_internal c stop g s = .error .SolverError ∨
    ∃ sonic, fromSonic I str interp o store_internal c stop g s = .ok sonic ∧
      Failed sonic.flag ∧ (sonic.angles = [] → sonic.solution = [])

/-- The sonic part for a guess was made and did not fail. -/
def Completes (I : Integrator) (str : ℝ → String)
    (interp : List ℝ → List ℝ → Option (ℝ → ℝ)) (o : SolveOpts) (store_internal : Bool)
    (c : Conditions) (stop : ℝ) (g : Guess) : Prop :=
  ∃ s sonic, sonicState c.init_con g = some s ∧
    fromSonic I str interp o store_internal c stop g s = .ok sonic ∧ ¬ Failed sonic.flag

/-- What an evaluation at a guess stores: if the sonic part was made and failed, the state at
the sonic point and both parts. -/
noncomputable def stored (I : Integrator) (str : ℝ → String)
    (interp : List ℝ → List ℝ → Option (ℝ → ℝ)) (o : SolveOpts) (store_internal : Bool)
    (c : Conditions) (midplane : SolutionOut) (stop : ℝ) (g : Guess) :
    Option (St × SolutionOut) :=
  open Classical in
  match sonicState c.init_con g with
  | none => none
  | some s =>
    match fromSonic I str interp o store_internal c stop g s with
    | .error _ => none
    | .ok sonic => if Failed sonic.flag then some (s, both midplane sonic) else none

/-- The solutions in the file: the midplane part, and for each guess in order whose sonic part
failed, both parts, with the state at the sonic point as initial conditions. -/
noncomputable def fileSolutions (I : Integrator) (str : ℝ → String)
    (interp : List ℝ → List ℝ → Option (ℝ → ℝ)) (o : SolveOpts) (store_internal : Bool)
    (s : SolutionInput ℝ) (c : Conditions) (mid : SolutionOut) (stop : ℝ) (gs : List Guess) :
    List Made :=
  ⟨s, c, mid⟩ :: (gs.filterMap (stored I str interp o store_internal c mid stop)).map
    fun x => ⟨s, { c with init_con := x.1 }, x.2⟩

end DiscSolver.SonicRootRun
