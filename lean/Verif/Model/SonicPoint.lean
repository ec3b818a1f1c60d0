import Verif.Model.Deriv
import Verif.Model.Py

/-!
# The slope of `v_θ` at the sonic point

`src/disc_solver/solve/sonic_point.py`, function by function.  Nothing in the package
imports this module, so it is not reached from the entry points.  The quadratic solver
comes from the external `root_solver` package and is a parameter.  Logging is left out.
-/

namespace DiscSolver

namespace SonicPoint

/-- `sonic_point.py:175-179` (`S_1_func`). -/
noncomputable def S_1_func
    (v_r v_θ γ : ℝ) : ℝ :=
  - v_r / (2 * v_θ) * (v_θ ^ 2 - 4 * γ)

/-- `sonic_point.py:182-200` (`S_1_dash_up_func`). -/
noncomputable def S_1_dash_up_func
    (a_0 ρ B_r B_φ B_θ θ v_φ deriv_v_φ deriv_B_r deriv_B_θ deriv_B_φ γ dderiv_B_r_up
     dderiv_B_φ_up deriv_ρ_up : ℝ) : ℝ :=
  (
      (1 + Real.tan θ ^ 2) * (v_φ ^ 2 + 1) +
      2 * v_φ * deriv_v_φ * Real.tan θ + a_0 / ρ * (
          (1 / 4 - γ) * deriv_B_θ * B_r + (1 / 4 - γ) * B_θ * deriv_B_r +
          deriv_B_r ^ 2 + B_r * dderiv_B_r_up + deriv_B_φ ^ 2 +
          B_φ * dderiv_B_φ_up - 2 * B_φ * deriv_B_φ * Real.tan θ -
          B_φ ^ 2 * (1 + Real.tan θ ^ 2) - deriv_ρ_up / ρ * (
              (1 / 4 - γ) * B_θ * B_r + B_r * deriv_B_r + B_φ * deriv_B_φ -
              B_φ ^ 2 * Real.tan θ
          )
      )
  )

/-- `sonic_point.py:203-215` (`S_1_dash_down_func`). -/
noncomputable def S_1_dash_down_func
    (a_0 ρ B_r B_φ B_θ θ deriv_B_r deriv_B_φ γ dderiv_B_r_down dderiv_B_φ_down
     deriv_ρ_down : ℝ) : ℝ :=
  a_0 / ρ * (
      B_r * dderiv_B_r_down + B_φ * dderiv_B_φ_down - deriv_ρ_down / ρ * (
          (1 / 4 - γ) * B_θ * B_r + B_r * deriv_B_r + B_φ * deriv_B_φ -
          B_φ ^ 2 * Real.tan θ
      )
  )

/-- `sonic_point.py:218-224` (`deriv_ρ_up_func`). -/
noncomputable def deriv_ρ_up_func
    (ρ v_r v_θ γ θ : ℝ) : ℝ :=
  - ρ * (
      2 * γ * v_r / v_θ - Real.tan θ
  )

/-- `sonic_point.py:227-231` (`deriv_ρ_down_func`). -/
noncomputable def deriv_ρ_down_func
    (ρ v_θ : ℝ) : ℝ :=
  - ρ / v_θ

/-- `sonic_point.py:234-282` (`dderiv_B_r_up_func`). -/
noncomputable def dderiv_B_r_up_func
    (η_O η_A η_H b_θ b_r b_φ deriv_η_O_up deriv_η_A_up deriv_η_H_up deriv_b_θ deriv_b_r
     deriv_b_φ B_r B_φ B_θ θ v_r v_θ deriv_v_r deriv_B_r deriv_B_θ deriv_B_φ γ
     dderiv_B_φ_up : ℝ) : ℝ :=
  1 / (η_O + η_A * (1 - b_φ ^ 2)) * (
      v_θ * deriv_B_r - deriv_v_r * B_θ - v_r * deriv_B_θ - dderiv_B_φ_up * (
          η_H * b_θ + η_A * b_r * b_φ
      ) - deriv_B_φ * (
          deriv_η_H_up * b_θ + η_H * deriv_b_θ + deriv_η_A_up * b_r * b_φ +
          η_A * deriv_b_r * b_φ + η_A * b_r * deriv_b_φ - η_A * b_φ * (
              b_r * Real.tan θ - b_θ * (1 / 4 - γ)
          ) - η_H * (
              b_r * (1 / 4 - γ) + b_θ * Real.tan θ
          )
      ) + B_φ * (
          deriv_η_A_up * b_φ * (
              b_r * Real.tan θ - b_θ * (1 / 4 - γ)
          ) + η_A * deriv_b_φ * (
              b_r * Real.tan θ - b_θ * (1 / 4 - γ)
          ) + η_A * b_φ * (
              deriv_b_r * Real.tan θ + b_r * (1 + Real.tan θ ^ 2) -
              deriv_b_θ * (1 / 4 - γ)
          ) + deriv_η_H_up * (
              b_r * (1 / 4 - γ) + b_θ * Real.tan θ
          ) + η_H * (
              deriv_b_r * (1 / 4 - γ) + deriv_b_θ * Real.tan θ +
              b_θ * (1 + Real.tan θ ^ 2)
          )
      )
  ) - (
      deriv_η_O_up + deriv_η_A_up * (1 - b_φ ^ 2) -
      2 * η_A * b_φ * deriv_b_φ
  ) / (
      (η_O + η_A * (1 - b_φ ^ 2)) ^ 2
  ) * (
      v_θ * B_r - v_r * B_θ - deriv_B_φ * (
          η_H * b_θ + η_A * b_r * b_φ
      ) + B_φ * (
          η_A * b_φ * (
              b_r * Real.tan θ - b_θ * (1 / 4 - γ)
          ) + η_H * (
              b_r * (1 / 4 - γ) + b_θ * Real.tan θ
          )
      )
  ) - deriv_B_θ * (1 / 4 - γ)

/-- `sonic_point.py:285-318` (`dderiv_B_r_down_func`). -/
noncomputable def dderiv_B_r_down_func
    (η_O η_A η_H b_θ b_r b_φ deriv_η_O_down deriv_η_A_down deriv_η_H_down B_r B_φ B_θ θ
     v_r v_θ deriv_B_φ γ dderiv_B_φ_down : ℝ) : ℝ :=
  1 / (η_O + η_A * (1 - b_φ ^ 2)) * (
      B_r - dderiv_B_φ_down * (
          η_H * b_θ + η_A * b_r * b_φ
      ) - deriv_B_φ * (
          deriv_η_H_down * b_θ + deriv_η_A_down * b_r * b_φ
      ) + B_φ * (
          deriv_η_A_down * b_φ * (
              b_r * Real.tan θ - b_θ * (1 / 4 - γ)
          ) + deriv_η_H_down * (
              b_r * (1 / 4 - γ) + b_θ * Real.tan θ
          )
      )
  ) - (
      deriv_η_O_down + deriv_η_A_down * (1 - b_φ ^ 2)
  ) / (
      (η_O + η_A * (1 - b_φ ^ 2)) ^ 2
  ) * (
      v_θ * B_r - v_r * B_θ - deriv_B_φ * (
          η_H * b_θ + η_A * b_r * b_φ
      ) + B_φ * (
          η_A * b_φ * (
              b_r * Real.tan θ - b_θ * (1 / 4 - γ)
          ) + η_H * (
              b_r * (1 / 4 - γ) + b_θ * Real.tan θ
          )
      )
  )

/-- `sonic_point.py:321-391` (`dderiv_B_φ_up_func`). -/
noncomputable def dderiv_B_φ_up_func
    (η_O η_A η_H b_θ b_r b_φ deriv_η_O_up deriv_η_A_up deriv_η_H_up deriv_b_θ deriv_b_r
     deriv_b_φ B_r B_φ B_θ θ v_r v_φ v_θ deriv_v_r deriv_v_φ deriv_B_r deriv_B_θ
     deriv_B_φ γ E_r C A_up deriv_E_r Z_5 Z_5_up : ℝ) : ℝ :=
  (
      C * (
          v_θ * deriv_B_r - deriv_v_r * B_θ - v_r * deriv_B_θ
      ) + A_up * (
          v_θ * B_r - v_r * B_θ
      ) - deriv_E_r - deriv_v_φ * B_θ - v_φ * deriv_B_θ + deriv_B_φ * (
          v_θ + Real.tan θ * (
              η_O + η_A * (1 - b_r ^ 2)
          ) + (1 / 4 - γ) * (
              η_H * b_φ + η_A * b_r * b_θ
          ) - C * (
              η_A * b_φ * (
                  b_r * Real.tan θ - b_θ * (1 / 4 - γ)
              ) + η_H * (
                  b_r * (1 / 4 - γ) + b_θ * Real.tan θ
              )
          )
      ) + B_φ * (
          (1 + Real.tan θ ^ 2) * (η_O + η_A * (1 - b_r ^ 2)) + Real.tan θ * (
              deriv_η_O_up + deriv_η_A_up * (1 - b_r ^ 2) -
              2 * η_A * b_r * deriv_b_r
          ) + (1 / 4 - γ) * (
              deriv_η_H_up * b_φ + η_H * deriv_b_φ +
              deriv_η_A_up * b_r * b_θ + η_A * deriv_b_r * b_θ +
              η_A * b_r * deriv_b_θ
          ) - A_up * (
              η_A * b_φ * (
                  b_r * Real.tan θ - b_θ * (1 / 4 - γ)
              ) + η_H * (
                  b_r * (1 / 4 - γ) + b_θ * Real.tan θ
              )
          ) - C * (
              deriv_η_A_up * b_φ * (
                  b_r * Real.tan θ - b_θ * (1 / 4 - γ)
              ) + η_A * deriv_b_φ * (
                  b_r * Real.tan θ - b_θ * (1 / 4 - γ)
              ) + η_A * b_φ * (
                  deriv_b_r * Real.tan θ + b_r * (1 + Real.tan θ ^ 2) -
                  deriv_b_θ * (1 / 4 - γ)
              ) + η_H * (
                  deriv_b_r * (1 / 4 - γ) + deriv_b_θ * Real.tan θ +
                  b_θ * (1 + Real.tan θ ^ 2)
              ) + deriv_η_H_up * (
                  b_r * (1 / 4 - γ) + b_θ * Real.tan θ
              )
          )
      )
  ) / Z_5 - Z_5_up / (Z_5 ^ 2) * (
      C * (
          v_θ * B_r - v_r * B_θ
      ) - E_r - v_φ * B_θ + B_φ * (
          v_θ + Real.tan θ * (η_O + η_A * (1 - b_r ^ 2)) + (1 / 4 - γ) * (
              η_H * b_φ + η_A * b_r * b_θ
          ) - C * (
              η_A * b_φ * (
                  b_r * Real.tan θ - b_θ * (1 / 4 - γ)
              ) + η_H * (
                  b_r * (1 / 4 - γ) + b_θ * Real.tan θ
              )
          )
      )
  )

/-- `sonic_point.py:394-438` (`dderiv_B_φ_down_func`). -/
noncomputable def dderiv_B_φ_down_func
    (η_O η_A η_H b_θ b_r b_φ deriv_η_O_down deriv_η_A_down deriv_η_H_down B_r B_φ B_θ θ
     v_r v_φ v_θ γ E_r C A_down Z_5 Z_5_down : ℝ) : ℝ :=
  (
      A_down * (
          v_θ * B_r - v_r * B_θ
      ) + B_φ * (
          1 + Real.tan θ * (
              deriv_η_O_down + deriv_η_A_down * (1 - b_r ^ 2)
          ) + (1 / 4 - γ) * (
              deriv_η_H_down * b_φ + deriv_η_A_down * b_r * b_θ
          ) - A_down * (
              η_A * b_φ * (
                  b_r * Real.tan θ - b_θ * (1 / 4 - γ)
              ) + η_H * (
                  b_r * (1 / 4 - γ) + b_θ * Real.tan θ
              )
          ) - C * (
              deriv_η_A_down * b_φ * (
                  b_r * Real.tan θ - b_θ * (1 / 4 - γ)
              ) + deriv_η_H_down * (
                  b_r * (1 / 4 - γ) + b_θ * Real.tan θ
              )
          )
      )
  ) / Z_5 - Z_5_down / (Z_5 ^ 2) * (
      C * (
          v_θ * B_r - v_r * B_θ
      ) - E_r - v_φ * B_θ + B_φ * (
          v_θ + Real.tan θ * (η_O + η_A * (1 - b_r ^ 2)) + (1 / 4 - γ) * (
              η_H * b_φ + η_A * b_r * b_θ
          ) - C * (
              η_A * b_φ * (
                  b_r * Real.tan θ - b_θ * (1 / 4 - γ)
              ) + η_H * (
                  b_r * (1 / 4 - γ) + b_θ * Real.tan θ
              )
          )
      )
  )

/-- `sonic_point.py:441-460` (`A_up_func`). -/
noncomputable def A_up_func
    (η_O η_A η_H b_θ b_r b_φ deriv_η_O_up deriv_η_A_up deriv_η_H_up deriv_b_θ deriv_b_r
     deriv_b_φ : ℝ) : ℝ :=
  (
      deriv_η_H_up * b_θ + η_H * deriv_b_θ - deriv_η_A_up * b_r * b_φ -
      η_A * deriv_b_r * b_φ - η_A * b_r * deriv_b_φ
  ) / (
      η_O + η_A * (1 - b_φ ^ 2)
  ) - (
      (
          deriv_η_O_up + deriv_η_A_up * (1 - b_φ ^ 2) -
          2 * η_A * b_φ * deriv_b_φ
      ) * (η_H * b_θ - η_A * b_r * b_φ)
  ) / (
      (η_O + η_A * (1 - b_φ ^ 2)) ^ 2
  )

/-- `sonic_point.py:463-481` (`A_down_func`). -/
noncomputable def A_down_func
    (η_O η_A η_H b_θ b_r b_φ deriv_η_O_down deriv_η_A_down deriv_η_H_down deriv_b_φ
     : ℝ) : ℝ :=
  (
      deriv_η_H_down * b_θ - deriv_η_A_down * b_r * b_φ
  ) / (
      η_O + η_A * (1 - b_φ ^ 2)
  ) - (
      (
          deriv_η_O_down + deriv_η_A_down * (1 - b_φ ^ 2) -
          2 * η_A * b_φ * deriv_b_φ
      ) * (η_H * b_θ - η_A * b_r * b_φ)
  ) / (
      (η_O + η_A * (1 - b_φ ^ 2)) ^ 2
  )

/-- `sonic_point.py:484-495` (`deriv_η_up_func`). -/
noncomputable def deriv_η_up_func
    (ρ B_r B_φ B_θ deriv_ρ_up deriv_B_r deriv_B_φ deriv_B_θ : ℝ) : ℝ :=
  let B_sq := B_r ^ 2 + B_φ ^ 2 + B_θ ^ 2
  (
      2 * (B_r * deriv_B_r + B_φ * deriv_B_φ + B_θ * deriv_B_θ) -
      B_sq * deriv_ρ_up / ρ
  ) / ρ

/-- `sonic_point.py:498-504` (`deriv_η_down_func`). -/
noncomputable def deriv_η_down_func
    (ρ B_r B_φ B_θ deriv_ρ_down : ℝ) : ℝ :=
  let B_sq := B_r ^ 2 + B_φ ^ 2 + B_θ ^ 2
  (- deriv_ρ_down * B_sq / (ρ ^ 2))

/-- `sonic_point.py:507-520` (`Z_5_up_func`). -/
noncomputable def Z_5_up_func
    (η_H η_A b_r b_φ b_θ A_up C deriv_η_O_up deriv_η_A_up deriv_η_H_up deriv_b_θ
     deriv_b_r deriv_b_φ : ℝ) : ℝ :=
  (
      deriv_η_O_up + deriv_η_A_up * (1 - b_r ^ 2) - η_A * deriv_b_r * b_r +
      A_up * (η_H * b_θ - η_A * b_r * b_φ) + C * (
          deriv_η_H_up * b_θ + η_H * deriv_b_θ - deriv_η_A_up * b_r * b_φ -
          η_A * deriv_b_r * b_φ - η_A * b_r * deriv_b_φ
      )
  )

/-- `sonic_point.py:523-535` (`Z_5_down_func`). -/
noncomputable def Z_5_down_func
    (η_H η_A b_r b_φ b_θ A_down C deriv_η_O_down deriv_η_A_down deriv_η_H_down
     : ℝ) : ℝ :=
  (
      deriv_η_O_down + deriv_η_A_down * (1 - b_r ^ 2) +
      A_down * (η_H * b_θ - η_A * b_r * b_φ) + C * (
          deriv_η_H_down * b_θ - deriv_η_A_down * b_r * b_φ
      )
  )

/-- The keyword arguments of `deriv_v_θ_sonic` (`sonic_point.py:18-23`). -/
structure Args where
  a_0 : ℝ
  ρ : ℝ
  B_r : ℝ
  B_φ : ℝ
  B_θ : ℝ
  η_O : ℝ
  η_H : ℝ
  η_A : ℝ
  θ : ℝ
  v_r : ℝ
  v_φ : ℝ
  v_θ : ℝ := 1
  deriv_v_r : ℝ
  deriv_v_φ : ℝ
  deriv_B_r : ℝ
  deriv_B_θ : ℝ
  deriv_B_φ : ℝ
  γ : ℝ
  η_O_0 : ℝ
  η_A_0 : ℝ
  η_H_0 : ℝ
  η_derivs : Bool
  E_r : Option ℝ
  b_r : ℝ
  b_θ : ℝ
  b_φ : ℝ

namespace Args

variable (p : Args)

/-- `sonic_point.py:41`. -/
noncomputable def J_r : ℝ :=
  J_r_func (θ := p.θ) (B_φ := p.B_φ) (deriv_B_φ := p.deriv_B_φ)

/-- `sonic_point.py:42`. -/
noncomputable def J_θ : ℝ :=
  J_θ_func (γ := p.γ) (B_φ := p.B_φ)

/-- `sonic_point.py:43`. -/
noncomputable def J_φ : ℝ :=
  J_φ_func (γ := p.γ) (B_θ := p.B_θ) (deriv_B_r := p.deriv_B_r)

/-- `sonic_point.py:26-34`. -/
noncomputable def E : ℝ :=
  p.E_r.getD (
    E_r_func (v_θ := p.v_θ) (v_φ := p.v_φ) (B_θ := p.B_θ) (B_φ := p.B_φ) (J_r := p.J_r)
      (J_θ := p.J_θ) (J_φ := p.J_φ) (η_O := p.η_O) (η_A := p.η_A) (η_H := p.η_H)
      (b_r := p.b_r) (b_θ := p.b_θ) (b_φ := p.b_φ))

/-- `sonic_point.py:36-39`. -/
noncomputable def unit_derivs : ℝ × ℝ × ℝ :=
  B_unit_derivs (B_r := p.B_r) (B_φ := p.B_φ) (B_θ := p.B_θ)
    (deriv_B_r := p.deriv_B_r) (deriv_B_φ := p.deriv_B_φ) (deriv_B_θ := p.deriv_B_θ)
    (b_r := p.b_r) (b_φ := p.b_φ) (b_θ := p.b_θ)

/-- `sonic_point.py:36`. -/
noncomputable def deriv_b_r : ℝ :=
  p.unit_derivs.1

/-- `sonic_point.py:36`. -/
noncomputable def deriv_b_φ : ℝ :=
  p.unit_derivs.2.1

/-- `sonic_point.py:36`. -/
noncomputable def deriv_b_θ : ℝ :=
  p.unit_derivs.2.2

/-- `sonic_point.py:45-48`. -/
noncomputable def deriv_E_r : ℝ :=
  deriv_E_r_func (γ := p.γ) (v_r := p.v_r) (v_φ := p.v_φ) (B_r := p.B_r)
    (B_φ := p.B_φ) (η_O := p.η_O) (η_A := p.η_A) (η_H := p.η_H) (b_r := p.b_r)
    (b_θ := p.b_θ) (b_φ := p.b_φ) (J_r := p.J_r) (J_θ := p.J_θ) (J_φ := p.J_φ)

/-- `sonic_point.py:50`. -/
noncomputable def C : ℝ :=
  C_func (η_O := p.η_O) (η_A := p.η_A) (η_H := p.η_H) (b_θ := p.b_θ) (b_r := p.b_r)
    (b_φ := p.b_φ)

/-- `sonic_point.py:52`. -/
noncomputable def Z_5 : ℝ :=
  Z_5_func (η_O := p.η_O) (η_A := p.η_A) (η_H := p.η_H) (b_r := p.b_r) (b_θ := p.b_θ)
    (b_φ := p.b_φ) (C := p.C)

/-- `sonic_point.py:54`. -/
noncomputable def S_1 : ℝ :=
  S_1_func (v_r := p.v_r) (v_θ := p.v_θ) (γ := p.γ)

/-- `sonic_point.py:56`. -/
noncomputable def deriv_ρ_up : ℝ :=
  deriv_ρ_up_func (ρ := p.ρ) (v_r := p.v_r) (v_θ := p.v_θ) (γ := p.γ) (θ := p.θ)

/-- `sonic_point.py:57`. -/
noncomputable def deriv_ρ_down : ℝ :=
  deriv_ρ_down_func (ρ := p.ρ) (v_θ := p.v_θ)

/-- `sonic_point.py:60-63`. -/
noncomputable def deriv_η_scale_up : ℝ :=
  deriv_η_up_func (ρ := p.ρ) (B_r := p.B_r) (B_φ := p.B_φ) (B_θ := p.B_θ)
    (deriv_ρ_up := p.deriv_ρ_up) (deriv_B_r := p.deriv_B_r) (deriv_B_φ := p.deriv_B_φ)
    (deriv_B_θ := p.deriv_B_θ)

/-- `sonic_point.py:65-67`. -/
noncomputable def deriv_η_scale_down : ℝ :=
  deriv_η_down_func (ρ := p.ρ) (B_r := p.B_r) (B_φ := p.B_φ) (B_θ := p.B_θ)
    (deriv_ρ_down := p.deriv_ρ_down)

/-- `sonic_point.py:69-71, 78-80`. -/
noncomputable def deriv_η_O_up : ℝ :=
  if p.η_derivs then p.deriv_η_scale_up * p.η_O_0 else 0

/-- `sonic_point.py:69-71, 78-80`. -/
noncomputable def deriv_η_A_up : ℝ :=
  if p.η_derivs then p.deriv_η_scale_up * p.η_A_0 else 0

/-- `sonic_point.py:69-71, 78-80`. -/
noncomputable def deriv_η_H_up : ℝ :=
  if p.η_derivs then p.deriv_η_scale_up * p.η_H_0 else 0

/-- `sonic_point.py:73-75, 81-83`. -/
noncomputable def deriv_η_O_down : ℝ :=
  if p.η_derivs then p.deriv_η_scale_down * p.η_O_0 else 0

/-- `sonic_point.py:73-75, 81-83`. -/
noncomputable def deriv_η_A_down : ℝ :=
  if p.η_derivs then p.deriv_η_scale_down * p.η_A_0 else 0

/-- `sonic_point.py:73-75, 81-83`. -/
noncomputable def deriv_η_H_down : ℝ :=
  if p.η_derivs then p.deriv_η_scale_down * p.η_H_0 else 0

/-- `sonic_point.py:85-90`. -/
noncomputable def A_up : ℝ :=
  A_up_func (η_O := p.η_O) (η_A := p.η_A) (η_H := p.η_H) (b_θ := p.b_θ) (b_r := p.b_r)
    (b_φ := p.b_φ) (deriv_η_O_up := p.deriv_η_O_up) (deriv_η_A_up := p.deriv_η_A_up)
    (deriv_η_H_up := p.deriv_η_H_up) (deriv_b_θ := p.deriv_b_θ)
    (deriv_b_r := p.deriv_b_r) (deriv_b_φ := p.deriv_b_φ)

/-- `sonic_point.py:92-96`. -/
noncomputable def A_down : ℝ :=
  A_down_func (η_O := p.η_O) (η_A := p.η_A) (η_H := p.η_H) (b_θ := p.b_θ)
    (b_r := p.b_r) (b_φ := p.b_φ) (deriv_η_O_down := p.deriv_η_O_down)
    (deriv_η_A_down := p.deriv_η_A_down) (deriv_η_H_down := p.deriv_η_H_down)
    (deriv_b_φ := p.deriv_b_φ)

/-- `sonic_point.py:98-103`. -/
noncomputable def Z_5_up : ℝ :=
  Z_5_up_func (η_H := p.η_H) (η_A := p.η_A) (b_r := p.b_r) (b_φ := p.b_φ)
    (b_θ := p.b_θ) (A_up := p.A_up) (C := p.C) (deriv_η_O_up := p.deriv_η_O_up)
    (deriv_η_A_up := p.deriv_η_A_up) (deriv_η_H_up := p.deriv_η_H_up)
    (deriv_b_θ := p.deriv_b_θ) (deriv_b_r := p.deriv_b_r) (deriv_b_φ := p.deriv_b_φ)

/-- `sonic_point.py:104-108`. -/
noncomputable def Z_5_down : ℝ :=
  Z_5_down_func (η_H := p.η_H) (η_A := p.η_A) (b_r := p.b_r) (b_φ := p.b_φ)
    (b_θ := p.b_θ) (A_down := p.A_down) (C := p.C)
    (deriv_η_O_down := p.deriv_η_O_down) (deriv_η_A_down := p.deriv_η_A_down)
    (deriv_η_H_down := p.deriv_η_H_down)

/-- `sonic_point.py:110-118`. -/
noncomputable def dderiv_B_φ_up : ℝ :=
  dderiv_B_φ_up_func (η_O := p.η_O) (η_A := p.η_A) (η_H := p.η_H) (b_θ := p.b_θ)
    (b_r := p.b_r) (b_φ := p.b_φ) (deriv_η_O_up := p.deriv_η_O_up)
    (deriv_η_A_up := p.deriv_η_A_up) (deriv_η_H_up := p.deriv_η_H_up)
    (deriv_b_θ := p.deriv_b_θ) (deriv_b_r := p.deriv_b_r) (deriv_b_φ := p.deriv_b_φ)
    (B_r := p.B_r) (B_φ := p.B_φ) (B_θ := p.B_θ) (θ := p.θ) (v_r := p.v_r)
    (v_φ := p.v_φ) (v_θ := p.v_θ) (deriv_v_r := p.deriv_v_r)
    (deriv_v_φ := p.deriv_v_φ) (deriv_B_r := p.deriv_B_r) (deriv_B_θ := p.deriv_B_θ)
    (deriv_B_φ := p.deriv_B_φ) (γ := p.γ) (E_r := p.E) (C := p.C) (A_up := p.A_up)
    (deriv_E_r := p.deriv_E_r) (Z_5 := p.Z_5) (Z_5_up := p.Z_5_up)

/-- `sonic_point.py:119-125`. -/
noncomputable def dderiv_B_φ_down : ℝ :=
  dderiv_B_φ_down_func (η_O := p.η_O) (η_A := p.η_A) (η_H := p.η_H) (b_θ := p.b_θ)
    (b_r := p.b_r) (b_φ := p.b_φ) (deriv_η_O_down := p.deriv_η_O_down)
    (deriv_η_A_down := p.deriv_η_A_down) (deriv_η_H_down := p.deriv_η_H_down)
    (B_r := p.B_r) (B_φ := p.B_φ) (B_θ := p.B_θ) (θ := p.θ) (v_r := p.v_r)
    (v_φ := p.v_φ) (v_θ := p.v_θ) (γ := p.γ) (E_r := p.E) (C := p.C)
    (A_down := p.A_down) (Z_5 := p.Z_5) (Z_5_down := p.Z_5_down)

/-- `sonic_point.py:127-134`. -/
noncomputable def dderiv_B_r_up : ℝ :=
  dderiv_B_r_up_func (η_O := p.η_O) (η_A := p.η_A) (η_H := p.η_H) (b_θ := p.b_θ)
    (b_r := p.b_r) (b_φ := p.b_φ) (deriv_η_O_up := p.deriv_η_O_up)
    (deriv_η_A_up := p.deriv_η_A_up) (deriv_η_H_up := p.deriv_η_H_up)
    (deriv_b_θ := p.deriv_b_θ) (deriv_b_r := p.deriv_b_r) (deriv_b_φ := p.deriv_b_φ)
    (B_r := p.B_r) (B_φ := p.B_φ) (B_θ := p.B_θ) (θ := p.θ) (v_r := p.v_r)
    (v_θ := p.v_θ) (deriv_v_r := p.deriv_v_r) (deriv_B_r := p.deriv_B_r)
    (deriv_B_θ := p.deriv_B_θ) (deriv_B_φ := p.deriv_B_φ) (γ := p.γ)
    (dderiv_B_φ_up := p.dderiv_B_φ_up)

/-- `sonic_point.py:135-140`. -/
noncomputable def dderiv_B_r_down : ℝ :=
  dderiv_B_r_down_func (η_O := p.η_O) (η_A := p.η_A) (η_H := p.η_H) (b_θ := p.b_θ)
    (b_r := p.b_r) (b_φ := p.b_φ) (deriv_η_O_down := p.deriv_η_O_down)
    (deriv_η_A_down := p.deriv_η_A_down) (deriv_η_H_down := p.deriv_η_H_down)
    (B_r := p.B_r) (B_φ := p.B_φ) (B_θ := p.B_θ) (θ := p.θ) (v_r := p.v_r)
    (v_θ := p.v_θ) (deriv_B_φ := p.deriv_B_φ) (γ := p.γ)
    (dderiv_B_φ_down := p.dderiv_B_φ_down)

/-- `sonic_point.py:142-147`. -/
noncomputable def S_1_dash_up : ℝ :=
  S_1_dash_up_func (a_0 := p.a_0) (ρ := p.ρ) (B_r := p.B_r) (B_φ := p.B_φ)
    (B_θ := p.B_θ) (θ := p.θ) (v_φ := p.v_φ) (deriv_v_φ := p.deriv_v_φ)
    (deriv_B_r := p.deriv_B_r) (deriv_B_θ := p.deriv_B_θ) (deriv_B_φ := p.deriv_B_φ)
    (γ := p.γ) (dderiv_B_r_up := p.dderiv_B_r_up) (dderiv_B_φ_up := p.dderiv_B_φ_up)
    (deriv_ρ_up := p.deriv_ρ_up)

/-- `sonic_point.py:148-152`. -/
noncomputable def S_1_dash_down : ℝ :=
  S_1_dash_down_func (a_0 := p.a_0) (ρ := p.ρ) (B_r := p.B_r) (B_φ := p.B_φ)
    (B_θ := p.B_θ) (θ := p.θ) (deriv_B_r := p.deriv_B_r) (deriv_B_φ := p.deriv_B_φ)
    (γ := p.γ) (dderiv_B_r_down := p.dderiv_B_r_down)
    (dderiv_B_φ_down := p.dderiv_B_φ_down) (deriv_ρ_down := p.deriv_ρ_down)

/-- `sonic_point.py:154`. -/
noncomputable def a : ℝ :=
  2 * p.v_θ

/-- `sonic_point.py:155`. -/
noncomputable def b : ℝ :=
  p.v_r * p.v_θ + p.S_1 + p.v_θ * p.S_1_dash_down

/-- `sonic_point.py:156`. -/
noncomputable def c : ℝ :=
  p.deriv_v_r / 2 * (p.v_θ ^ 2 - 4 * p.γ) + p.v_θ * p.S_1_dash_up

end Args

open Classical in
/-- `deriv_v_θ_sonic` (`sonic_point.py:18-172`).  `solve_quadratic` is the function of
the external package.  Both `raise` statements raise `SolverError`; the messages are
left out. -/
noncomputable def deriv_v_θ_sonic (solve_quadratic : ℝ → ℝ → ℝ → ℝ × ℝ) (p : Args) :
    Except PyErr ℝ :=
  let x := solve_quadratic p.a p.b p.c
  if x.1 > 0 ∧ x.2 > 0 then .error .SolverError
  else if x.1 > 0 then .ok x.1
  else if x.2 > 0 then .ok x.2
  else .error .SolverError

end SonicPoint

end DiscSolver
