import Mathlib.Data.Real.Basic

/-!
# State vectors

The solver state is an array of eleven floats indexed by `ODEIndex`.
-/

namespace DiscSolver

/-- One row of a solution, `src/disc_solver/utils.py:57-72` (`ODEIndex`).
`X` is index 7, which the code calls `B_φ_prime` or `E_r` (two names for the
same slot).  Simplification: floats are exact reals. -/
@[ext]
structure St where
  /-- index 0 -/
  B_r : ℝ
  /-- index 1 -/
  B_φ : ℝ
  /-- index 2 -/
  B_θ : ℝ
  /-- index 3 -/
  v_r : ℝ
  /-- index 4 -/
  v_φ : ℝ
  /-- index 5 -/
  v_θ : ℝ
  /-- index 6 -/
  ρ : ℝ
  /-- index 7: `B_φ_prime` or `E_r` -/
  X : ℝ
  /-- index 8 -/
  η_O : ℝ
  /-- index 9 -/
  η_A : ℝ
  /-- index 10 -/
  η_H : ℝ

/-- `numpy.zeros(len(ODEIndex))`, used e.g. in
`src/disc_solver/solve/deriv_midplane.py:328`. -/
def St.zero : St := ⟨0, 0, 0, 0, 0, 0, 0, 0, 0, 0, 0⟩

/-- Array addition `a + b` of two states, as used in
`src/disc_solver/solve/solution.py:364`. -/
noncomputable def St.add (a b : St) : St :=
  ⟨a.B_r + b.B_r, a.B_φ + b.B_φ, a.B_θ + b.B_θ, a.v_r + b.v_r, a.v_φ + b.v_φ,
   a.v_θ + b.v_θ, a.ρ + b.ρ, a.X + b.X, a.η_O + b.η_O, a.η_A + b.η_A,
   a.η_H + b.η_H⟩

/-- Array times scalar `a * c` of a state, as used in
`src/disc_solver/solve/solution.py:364`. -/
noncomputable def St.smul (c : ℝ) (a : St) : St :=
  ⟨a.B_r * c, a.B_φ * c, a.B_θ * c, a.v_r * c, a.v_φ * c, a.v_θ * c, a.ρ * c,
   a.X * c, a.η_O * c, a.η_A * c, a.η_H * c⟩

end DiscSolver
