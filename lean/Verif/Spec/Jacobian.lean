import Mathlib.Analysis.Calculus.FDeriv.Basic
import Mathlib.Analysis.SpecialFunctions.Trigonometric.Deriv
import Mathlib.Analysis.Normed.Group.Basic
import Verif.Model.Ode

/-!
# What a Jacobian is

Specification for `Verif.Props.Jacobian`, independent of the model of
`compute_jacobian.py`.
-/

namespace DiscSolver.Jacobian

/-- A state as a vector, in the order of `ODEIndex`. -/
def vec (s : St) : Fin 11 → ℝ :=
  ![s.B_r, s.B_φ, s.B_θ, s.v_r, s.v_φ, s.v_θ, s.ρ, s.X, s.η_O, s.η_A, s.η_H]

/-- The state with the given components. -/
def ofVec (x : Fin 11 → ℝ) : St :=
  ⟨x 0, x 1, x 2, x 3, x 4, x 5, x 6, x 7, x 8, x 9, x 10⟩

/-- The right-hand side at angle `θ` as a map of vectors. -/
noncomputable def rhsVec (P : OdeArgs) (θ : ℝ) (x : Fin 11 → ℝ) : Fin 11 → ℝ :=
  vec (rhsDerivs P θ (ofVec x))

/-- States at which no divisor of the right-hand side vanishes: there is a field and some
gas, it is moving but not at the speed of sound, and the diffusivities are physical. -/
structure Smooth (s : St) : Prop where
  B : s.B_r ^ 2 + s.B_φ ^ 2 + s.B_θ ^ 2 ≠ 0
  ρ : s.ρ ≠ 0
  v : s.v_θ ≠ 0
  sonic : s.v_θ ≠ 1
  sonic' : s.v_θ ≠ -1
  η_O : 0 < s.η_O
  η_A : 0 ≤ s.η_A

end DiscSolver.Jacobian
