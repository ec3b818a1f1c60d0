import Verif.Model.Solution

/-!
# Specification: which solution ends a search
-/

namespace DiscSolver.StepRun

/-- Three samples in a row. -/
def InARow (l : List ℝ) (a b c : ℝ) : Prop :=
  ∃ i, l[i]? = some a ∧ l[i + 1]? = some b ∧ l[i + 2]? = some c

/-- The polar velocities within a tenth below the sound speed, in order. -/
noncomputable def nearSonic (o : SolutionOut) : List ℝ :=
  open Classical in (o.solution.map (·.v_θ)).filter fun v => decide (0.9 < v ∧ v < 1)

/-- A solution which ends the search: the integrator succeeded, the polar velocity and the
density are never negative, the velocity never drops from one sample to the next, comes
near the sound speed, and does not speed up there. -/
structure Accepted (o : SolutionOut) : Prop where
  success : o.flag = .SUCCESS
  velocity : ∀ s ∈ o.solution, 0 ≤ s.v_θ
  rising : ∀ i s t, o.solution[i]? = some s → o.solution[i + 1]? = some t → s.v_θ ≤ t.v_θ
  density : ∀ s ∈ o.solution, 0 ≤ s.ρ
  near : nearSonic o ≠ []
  slowing : ∀ a b c, InARow (nearSonic o) a b c → c - b ≤ b - a

end DiscSolver.StepRun
