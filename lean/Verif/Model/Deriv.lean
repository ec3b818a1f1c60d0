import Mathlib.Analysis.SpecialFunctions.Trigonometric.Basic
import Mathlib.Analysis.SpecialFunctions.Sqrt
import Verif.Model.JE

/-!
# Derivative functions

`src/disc_solver/solve/deriv_funcs.py`, line by line.  `tan`, `sec` and `sqrt`
keyword arguments always take their defaults.
-/

namespace DiscSolver

/-- `src/disc_solver/utils.py:120-124` (`sec`). -/
noncomputable def sec (angle : ℝ) : ℝ := 1 / Real.cos angle

/-- `deriv_funcs.py:15-19` (`Z_5_func`). -/
noncomputable def Z_5_func (η_O η_A η_H b_r b_θ b_φ C : ℝ) : ℝ :=
  η_O + η_A * (1 - b_r ^ 2) + C * (η_H * b_θ - η_A * b_r * b_φ)

/-- `deriv_funcs.py:22-43` (`deriv_B_φ_func`). -/
noncomputable def deriv_B_φ_func
    (θ γ B_r B_θ B_φ v_r v_φ v_θ η_O η_A η_H E_r b_r b_φ b_θ C Z_5 : ℝ) : ℝ :=
  (C * (v_θ * B_r - v_r * B_θ) - E_r - v_φ * B_θ + B_φ * (
      v_θ + Real.tan θ * (η_O + η_A * (1 - b_r ^ 2)) + (1 / 4 - γ) * (
        η_H * b_φ + η_A * b_r * b_θ
      ) - C * (
        η_A * b_φ * (
          b_r * Real.tan θ -
          b_θ * (1/4 - γ)
        ) + η_H * (
          b_r * (1/4 - γ) +
          b_θ * Real.tan θ
        )
      )
    )) / Z_5

/-- `deriv_funcs.py:46-70` (`deriv_B_r_func`). -/
noncomputable def deriv_B_r_func
    (θ γ B_r B_θ B_φ v_r v_θ deriv_B_φ η_O η_A η_H b_r b_φ b_θ : ℝ) : ℝ :=
  (v_θ * B_r - v_r * B_θ - deriv_B_φ * (
      η_H * b_θ +
      η_A * b_r * b_φ
    ) + B_φ * (
      η_A * b_φ * (
        b_r * Real.tan θ -
        b_θ * (1/4 - γ)
      ) + η_H * (
        b_r * (1/4 - γ) +
        b_θ * Real.tan θ
      )
    )) / (
      η_O + η_A * (1 - b_φ) * (1 + b_φ)
    ) - B_θ * (1/4 - γ)

/-- `deriv_funcs.py:73-82` (`deriv_E_r_func`). -/
noncomputable def deriv_E_r_func
    (γ v_r v_φ B_r B_φ η_O η_A η_H b_r b_θ b_φ J_r J_θ J_φ : ℝ) : ℝ :=
  (γ - 3 / 4) * E_θ_func (v_r := v_r) (v_φ := v_φ) (B_r := B_r) (B_φ := B_φ)
    (J_r := J_r) (J_θ := J_θ) (J_φ := J_φ) (η_O := η_O) (η_A := η_A)
    (η_H := η_H) (b_r := b_r) (b_θ := b_θ) (b_φ := b_φ)

/-- `deriv_funcs.py:85-96` (`deriv_η_skw_func`). -/
noncomputable def deriv_η_skw_func
    (ρ B_r B_φ B_θ deriv_ρ deriv_B_r deriv_B_φ deriv_B_θ : ℝ) : ℝ :=
  let B_sq := B_r ^ 2 + B_φ ^ 2 + B_θ ^ 2
  (2 * (B_r * deriv_B_r + B_φ * deriv_B_φ + B_θ * deriv_B_θ) -
    B_sq * deriv_ρ / ρ) / ρ

/-- `deriv_funcs.py:99-119` (`B_unit_derivs`), the list comprehension over
`(b_r, deriv_B_r), (b_φ, deriv_B_φ), (b_θ, deriv_B_θ)` as a triple. -/
noncomputable def B_unit_derivs
    (B_r B_φ B_θ deriv_B_r deriv_B_φ deriv_B_θ b_r b_φ b_θ : ℝ) : ℝ × ℝ × ℝ :=
  let B_mag := Real.sqrt (B_r ^ 2 + B_φ ^ 2 + B_θ ^ 2)
  let f (B_unit B_deriv : ℝ) : ℝ :=
    1 / B_mag * (B_deriv - B_unit / B_mag * (
      B_r * deriv_B_r + B_φ * deriv_B_φ + B_θ * deriv_B_θ))
  (f b_r deriv_B_r, f b_φ deriv_B_φ, f b_θ deriv_B_θ)

/-- `deriv_funcs.py:122-140` (`A_func`). -/
noncomputable def A_func
    (η_O η_A η_H b_θ b_r b_φ deriv_η_O deriv_η_A deriv_η_H
      deriv_b_θ deriv_b_r deriv_b_φ : ℝ) : ℝ :=
  (deriv_η_H * b_θ + η_H * deriv_b_θ - deriv_η_A * b_r * b_φ -
      η_A * deriv_b_r * b_φ - η_A * b_r * deriv_b_φ
    ) / (
      η_O + η_A * (1 - b_φ ^ 2)
    ) - (
      (deriv_η_O + deriv_η_A * (1 - b_φ ^ 2) - 2 * η_A * b_φ * deriv_b_φ
      ) * (η_H * b_θ - η_A * b_r * b_φ)
    ) / (
      (η_O + η_A * (1 - b_φ ^ 2)) ^ 2
    )

/-- `deriv_funcs.py:143-147` (`C_func`). -/
noncomputable def C_func (η_O η_A η_H b_θ b_r b_φ : ℝ) : ℝ :=
  (η_H * b_θ - η_A * b_r * b_φ) / (η_O + η_A * (1 - b_φ ^ 2))

/-- `deriv_funcs.py:150-224` (`dderiv_B_φ_soln`). -/
noncomputable def dderiv_B_φ_soln
    (B_r B_φ B_θ η_O η_H η_A θ v_r v_θ v_φ deriv_v_r deriv_v_θ deriv_v_φ
      deriv_B_r deriv_B_θ deriv_B_φ γ deriv_η_O deriv_η_A deriv_η_H b_r b_φ b_θ
      deriv_b_r deriv_b_φ deriv_b_θ C A : ℝ) : ℝ :=
  (deriv_v_θ * B_φ + v_θ * deriv_B_φ - deriv_v_φ * B_θ - v_φ * deriv_B_θ +
    A * (
      v_θ * B_r - v_r * B_θ + B_φ * (
        η_A * b_φ * (
          b_r * Real.tan θ - b_θ * (1 / 4 - γ)
        ) + η_H * (
          b_r * (1 / 4 - γ) + b_θ * Real.tan θ
        )
      )
    ) + C * (
      deriv_v_θ * B_r - deriv_v_r * B_θ + v_θ * deriv_B_r -
      v_r * deriv_B_θ + deriv_B_φ * (
        η_A * b_φ * (
          b_r * Real.tan θ - b_θ * (1 / 4 - γ)
        ) + η_H * (
          b_r * (1 / 4 - γ) + b_θ * Real.tan θ
        )
      ) + B_φ * (
        deriv_η_A * b_φ * (
          b_r * Real.tan θ - b_θ * (1 / 4 - γ)
        ) + η_A * deriv_b_φ * (
          b_r * Real.tan θ - b_θ * (1 / 4 - γ)
        ) + η_A * b_φ * (
          deriv_b_r * Real.tan θ - deriv_b_θ * (1 / 4 - γ) +
          b_r * (1 + Real.tan θ ^ 2)
        ) + deriv_η_H * (
          b_r * (1 / 4 - γ) + b_θ * Real.tan θ
        ) + η_H * (
          deriv_b_r * (1 / 4 - γ) + deriv_b_θ * Real.tan θ +
          b_θ * (1 + Real.tan θ ^ 2)
        )
      )
    ) - deriv_B_φ * (
      deriv_η_O + deriv_η_A * (1 - b_r ^ 2) -
      2 * η_A * b_r * deriv_b_r + A * (
        η_H * b_θ + η_A * b_r * b_φ
      ) + C * (
        deriv_η_H * b_θ + η_H * deriv_b_θ + deriv_η_A * b_r * b_φ +
        η_A * deriv_b_r * b_φ + η_A * b_r * deriv_b_φ
      ) + η_O * Real.tan θ + η_A * (
        (1 - b_r ^ 2) * Real.tan θ + b_r * b_θ * (1 / 4 - γ)
      ) + (1 / 4 - γ) * η_H * b_φ
    ) - B_φ * (
      deriv_η_O * Real.tan θ + η_O * sec θ ^ 2 + deriv_η_A * (
        (1 - b_r ^ 2) * Real.tan θ + b_r * b_θ * (1 / 4 - γ)
      ) + (1 / 4 - γ) * deriv_η_H * b_φ - η_A * (
        2 * b_r * deriv_b_r * Real.tan θ - (1 - b_r ^ 2) * sec θ ^ 2 -
        deriv_b_r * b_θ * (1 / 4 - γ) - b_r * deriv_b_θ * (1 / 4 - γ)
      ) + (1 / 4 - γ) * η_H * deriv_b_φ
    ) - (3 / 4 - γ) * (
      (
        deriv_B_r + B_θ * (1 / 4 - γ)
      ) * (
        η_H * b_r + η_A * b_θ * b_φ
      ) + deriv_B_φ * (
        η_H * b_φ - η_A * b_r * b_θ
      ) + B_φ * (
        η_O * (1 / 4 - γ) + η_A * (
          (1 / 4 - γ) * (1 - b_θ ^ 2) + Real.tan θ * b_r * b_θ
        ) - η_H * b_φ * Real.tan θ
      ) + v_r * B_φ - v_φ * B_r
    )) / (
    η_O + η_A * (1 - b_r ^ 2) + C * (η_H * b_θ + η_A * b_r * b_φ))

end DiscSolver
