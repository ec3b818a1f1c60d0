import Mathlib.Analysis.SpecialFunctions.Trigonometric.Basic

/-!
# Currents and electric fields

`src/disc_solver/solve/j_e_funcs.py`, line by line.  Arguments are named as the
keyword arguments of the Python functions.  The `tan` keyword always defaults to
`numpy.tan`, modelled by `Real.tan`.
-/

namespace DiscSolver

/-- `j_e_funcs.py:8-12` (`J_r_func`). -/
noncomputable def J_r_func (θ B_φ deriv_B_φ : ℝ) : ℝ :=
  B_φ * Real.tan θ - deriv_B_φ

/-- `j_e_funcs.py:15-19` (`J_θ_func`). -/
noncomputable def J_θ_func (γ B_φ : ℝ) : ℝ :=
  - B_φ * (1/4 - γ)

/-- `j_e_funcs.py:22-26` (`J_φ_func`). -/
noncomputable def J_φ_func (γ B_θ deriv_B_r : ℝ) : ℝ :=
  deriv_B_r + B_θ * (1/4 - γ)

/-- `j_e_funcs.py:29-41` (`E_r_func`). -/
noncomputable def E_r_func
    (v_θ v_φ B_θ B_φ J_r J_θ J_φ η_O η_A η_H b_r b_θ b_φ : ℝ) : ℝ :=
  (η_O * J_r + η_H * (
      J_φ * b_θ - J_θ * b_φ
    ) - η_A * (
      J_φ * b_r * b_φ + J_θ * b_r * b_θ - J_r * (1 - b_r ^ 2)
    )) - v_φ * B_θ + v_θ * B_φ

/-- `j_e_funcs.py:44-56` (`E_θ_func`). -/
noncomputable def E_θ_func
    (v_r v_φ B_r B_φ J_r J_θ J_φ η_O η_A η_H b_r b_θ b_φ : ℝ) : ℝ :=
  (η_O * J_θ + η_H * (
      J_r * b_φ - J_φ * b_r
    ) - η_A * (
      J_r * b_r * b_θ + J_φ * b_θ * b_φ - J_θ * (1 - b_θ ^ 2)
    )) - v_r * B_φ + v_φ * B_r

/-- `j_e_funcs.py:59-71` (`E_φ_func`). -/
noncomputable def E_φ_func
    (v_r v_θ B_r B_θ J_r J_θ J_φ η_O η_A η_H b_r b_θ b_φ : ℝ) : ℝ :=
  (η_O * J_φ + η_H * (
      J_θ * b_r - J_r * b_θ
    ) - η_A * (
      J_θ * b_θ * b_φ + J_r * b_r * b_φ - J_φ * (1 - b_φ ^ 2)
    )) - v_θ * B_r + v_r * B_θ

end DiscSolver
