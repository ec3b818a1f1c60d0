import Verif.Model.Conditions
import Verif.Model.Ode
import Verif.Model.Containers

/-!
# The hydrostatic solver

`src/disc_solver/solve/hydrostatic.py`, line by line: the initial conditions,
the helper functions and the right-hand side it hands to the integrator.
-/

namespace DiscSolver.Hydro

/-- `hydrostatic.py:42-96` (`hydrostatic_define_conditions`).  `none` is
`SolverError`, as for `define_conditions`; the same simplifications apply. -/
noncomputable def hydrostatic_define_conditions (inp : NumInput) :
    Option Conditions :=
  let ρ : ℝ := 1
  let B_θ : ℝ := 1
  let v_θ : ℝ := 0
  let B_r : ℝ := 0
  let B_φ : ℝ := 0
  let v_r := - inp.v_rin_on_c_s
  let a_0 := inp.v_a_on_c_s ^ 2
  let norm_kepler_sq := 1 / inp.c_s_on_v_k ^ 2
  let η_O := inp.η_O
  let η_A := inp.η_A
  let η_H := inp.η_H
  let η_P := η_O + η_A
  let η_perp_sq := η_P ^ 2 + η_H ^ 2
  match v_φ_boundary_func (v_r := v_r) (η_H := η_H) (η_P := η_P)
      (norm_kepler_sq := norm_kepler_sq) (a_0 := a_0) (γ := 0) with
  | none => none
  | some v_φ =>
    let X := if inp.use_E_r then
        E_r_boundary_func (v_r := v_r) (v_φ := v_φ) (η_P := η_P) (η_H := η_H)
          (η_perp_sq := η_perp_sq) (a_0 := a_0)
      else
        B_φ_prime_boundary_func (v_r := v_r) (v_φ := v_φ) (a_0 := a_0)
    let init_con : St :=
      { B_r := B_r, B_φ := B_φ, B_θ := B_θ, v_r := v_r, v_φ := v_φ, v_θ := v_θ,
        ρ := ρ, X := X, η_O := η_O, η_A := η_A, η_H := η_H }
    let angles := (linspace inp.start inp.stop inp.num_angles).map radians
    some { norm_kepler_sq := norm_kepler_sq, a_0 := a_0, init_con := init_con,
           angles := angles, γ := 0 }

/-- `hydrostatic.py:99-117` (`X_dash_func`). -/
noncomputable def X_dash_func
    (η_O η_A η_H b_θ b_r b_φ deriv_η_O deriv_η_A deriv_η_H
      deriv_b_θ deriv_b_r deriv_b_φ : ℝ) : ℝ :=
  (deriv_η_H * b_θ + η_H * deriv_b_θ + deriv_η_A * b_r * b_φ +
      η_A * deriv_b_r * b_φ + η_A * b_r * deriv_b_φ
    ) / (
      η_O + η_A * (1 - b_φ ^ 2)
    ) - (
      (η_H * b_θ - η_A * b_r * b_φ) * (
        deriv_η_O + deriv_η_A * (1 - b_φ ^ 2) - 2 * η_A * b_φ * deriv_b_φ
      )
    ) / (
      (η_O + η_A * (1 - b_φ ^ 2)) ^ 2
    )

/-- `hydrostatic.py:120-124` (`X_func`). -/
noncomputable def X_func (η_O η_A η_H b_θ b_r b_φ : ℝ) : ℝ :=
  (η_H * b_θ + η_A * b_r * b_φ) / (η_O + η_A * (1 - b_φ ^ 2))

/-- `hydrostatic.py:127-131` (`b_func`). -/
noncomputable def b_func (X v_r : ℝ) : ℝ := - X * v_r / 2

/-- `hydrostatic.py:134-150` (`c_func`). -/
noncomputable def c_func
    (θ norm_kepler_sq a_0 X v_r B_φ B_θ B_r ρ η_A η_O η_H b_φ b_r b_θ : ℝ) :
    ℝ :=
  v_r ^ 2 / 2 + 5 / 2 - norm_kepler_sq + a_0 / ρ * (
    B_φ ^ 2 / 4 - X * B_φ * (
      1 / 4 * B_r + B_θ * Real.tan θ
    ) - B_θ / (η_O + η_A * (1 - b_φ ^ 2)) * (
      v_r * B_θ - B_φ * (
        η_A * b_φ * (b_r * Real.tan θ - b_θ / 4) +
        η_H * (b_r / 4 + b_θ * Real.tan θ)
      )
    )
  )

/-- `hydrostatic.py:153-166` (`Z_1_func`). -/
noncomputable def Z_1_func
    (θ a_0 B_φ B_θ B_r ρ deriv_B_r deriv_B_φ deriv_B_θ v_φ deriv_ρ : ℝ) : ℝ :=
  2 * a_0 / (v_φ * ρ) * (
    deriv_B_θ * (deriv_B_φ - B_φ * Real.tan θ) - (
      deriv_B_r * B_φ + B_r * deriv_B_φ
    ) / 4 - B_θ * deriv_B_φ * Real.tan θ - B_θ * B_φ * sec θ ^ 2 -
    deriv_ρ / ρ * (
      B_θ * deriv_B_φ - B_r * B_φ / 4 - B_θ * B_φ * Real.tan θ
    )
  )

/-- `hydrostatic.py:169-223` (`Z_2_func`). -/
noncomputable def Z_2_func
    (θ a_0 X v_r B_φ B_θ B_r ρ η_A η_O η_H b_φ b_r b_θ X_dash
      deriv_B_r deriv_B_φ deriv_B_θ deriv_ρ b c deriv_b_θ deriv_b_φ
      deriv_b_r deriv_η_O deriv_η_A deriv_η_H : ℝ) : ℝ :=
  v_r * X_dash / 4 + (
    v_r ^ 2 * X * X_dash / 16 + a_0 * deriv_ρ / (ρ ^ 2) * (
      B_φ ^ 2 / 4 - X * B_φ * (
        B_r / 4 + B_θ * Real.tan θ
      ) - B_θ / (η_O + η_A * (1 - b_φ ^ 2)) * (
        v_r * B_θ - B_φ * (
          η_A * b_φ * (b_θ / 4 + b_r * Real.tan θ) + η_H * (
            b_r / 4 + b_θ * Real.tan θ
          )
        )
      )
    ) - a_0 / ρ * (
      deriv_B_φ * B_φ / 2 - (X_dash * B_φ + X * deriv_B_φ) * (
        B_r / 4 + B_θ * Real.tan θ
      ) - X * B_φ * (
        deriv_B_r / 4 + deriv_B_θ * Real.tan θ + B_θ * sec θ ^ 2
      ) - (
        deriv_B_θ * (η_O + η_A * (1 - b_φ ^ 2)) - B_θ * (
          deriv_η_O + deriv_η_A * (1 - b_φ ^ 2) -
          2 * η_A * b_φ * deriv_b_φ
        )
      ) / (
        (η_O + η_A * (1 - b_φ ^ 2)) ^ 2
      ) * (
        v_r * B_θ - B_φ * (
          η_A * b_φ * (b_θ / 4 + b_r * Real.tan θ) + η_H * (
            b_r / 4 + b_θ * Real.tan θ
          )
        )
      ) - B_θ / (
        η_O + η_A * (1 - b_φ ^ 2)
      ) * (
        deriv_B_θ * v_r - deriv_B_φ * (
          η_A * b_φ * (b_θ / 4 + b_r * Real.tan θ) +
          η_H * (b_θ * Real.tan θ - b_r / 4)
        ) - B_φ * (
          (deriv_η_A * b_φ + η_A * deriv_b_φ) * (
            b_r * Real.tan θ - b_θ / 4
          ) + η_A * b_φ * (
            deriv_b_r * Real.tan θ + b_r * sec θ ^ 2 - deriv_b_θ / 4
          ) + deriv_η_H * (b_r / 4 + b_θ * Real.tan θ) + η_H * (
            deriv_b_r / 4 + deriv_b_θ * Real.tan θ + b_θ * sec θ ^ 2
          )
        )
      )
    )
  ) / Real.sqrt (b ^ 2 - 4 * c)

/-- `hydrostatic.py:226-234` (`Z_3_func`). -/
noncomputable def Z_3_func (X v_r a_0 B_θ ρ η_O η_A b_φ b c : ℝ) : ℝ :=
  X / 4 + (
    v_r * (X ^ 2 / 16 - 1) + 2 * a_0 * B_θ ^ 2 / (
      ρ * (η_O + η_A * (1 - b_φ ^ 2))
    )
  ) / Real.sqrt (b ^ 2 - 4 * c)

/-- `hydrostatic.py:237-241` (`Z_4_func`). -/
noncomputable def Z_4_func (B_θ B_r B_φ deriv_B_φ θ : ℝ) : ℝ :=
  B_θ * deriv_B_φ - B_r * B_φ / 4 - B_θ * B_φ * Real.tan θ

/-- `hydrostatic.py:244-250` (`Z_6_func`). -/
noncomputable def Z_6_func (C Z_3 Z_4 Z_5 a_0 B_θ v_φ ρ : ℝ) : ℝ :=
  Z_5 + 2 * a_0 * B_θ ^ 2 * v_φ * (C + Z_3) / (
    v_φ ^ 2 * ρ + 2 * a_0 * Z_3 * Z_4
  )

/-- `hydrostatic.py:253-259` (`Z_7_func`). -/
noncomputable def Z_7_func (C Z_1 Z_2 Z_3 Z_4 a_0 v_φ ρ : ℝ) : ℝ :=
  Z_2 + (
    (C + Z_3) * (Z_1 * v_φ ^ 2 * ρ - Z_2 * Z_4)
  ) / (v_φ ^ 2 * ρ + 2 * a_0 * Z_3 * Z_4)

/-- `hydrostatic.py:262-330` (`dderiv_B_φ_func`). -/
noncomputable def dderiv_B_φ_func
    (A b_r b_θ B_θ b_φ B_φ C deriv_b_r deriv_B_r deriv_b_θ deriv_B_θ deriv_b_φ
      deriv_B_φ deriv_η_A deriv_η_H deriv_η_O v_r v_φ Z_6 Z_7 η_A η_H η_O θ :
      ℝ) : ℝ :=
  (A * (
      B_φ * (
        η_A * b_φ * (
          b_r * Real.tan θ - b_θ / 4
        ) + η_H * (
          b_r / 4 + b_θ * Real.tan θ
        )
      ) - v_r * B_θ
    ) - v_φ * deriv_B_θ + C * (
      deriv_B_φ * (
        η_A * b_φ * (
          b_r * Real.tan θ - b_θ / 4
        ) + η_H * (
          b_r / 4 + b_θ * Real.tan θ
        )
      ) - v_r * deriv_B_θ + B_φ * (
        deriv_η_A * b_φ * (
          b_r * Real.tan θ - b_θ / 4
        ) + η_A * deriv_b_φ * (
          b_r * Real.tan θ - b_θ / 4
        ) + η_A * b_φ * (
          deriv_b_r * Real.tan θ - deriv_b_θ / 4 +
          b_r * (1 + Real.tan θ ^ 2)
        ) + deriv_η_H * (
          b_r / 4 + b_θ * Real.tan θ
        ) + η_H * (
          deriv_b_r / 4 + deriv_b_θ * Real.tan θ +
          b_θ * (1 + Real.tan θ ^ 2)
        )
      )
    ) - deriv_B_φ * (
      deriv_η_O + deriv_η_A * (1 - b_r ^ 2) -
      2 * η_A * b_r * deriv_b_r + A * (
        η_H * b_θ + η_A * b_r * b_φ
      ) + C * (
        η_H * b_θ + η_A * b_r * b_φ
      ) + η_O + η_A * (
        1 - b_r ^ 2 + b_r * b_θ / 4
      ) + η_H * b_φ / 4
    ) - B_φ * (
      deriv_η_O + deriv_η_A * (
        1 - b_r ^ 2 + b_r * b_θ / 4
      ) + deriv_η_H * b_φ / 4 - η_A * (
        2 * b_r * deriv_b_r - deriv_b_r * b_θ / 4 - b_r * deriv_b_θ / 4
      ) + η_H * deriv_b_φ / 4
    ) - 3 / 4 * (
      (
        deriv_B_r + B_θ / 4
      ) * (
        η_H * b_r + η_A * b_θ * b_φ
      ) + deriv_B_φ * (
        η_H * b_φ - η_A * b_r * b_θ
      ) + B_φ * (
        η_O / 4 + η_A * (
          (1 - b_θ ^ 2) / 4 + Real.tan θ * b_r * b_θ
        ) - η_H * b_φ * Real.tan θ
      )
    ) - B_θ * Z_7
  ) / Z_6

/-- `hydrostatic.py:333-337` (`deriv_v_φ_func`). -/
noncomputable def deriv_v_φ_func (Z_2 deriv_v_r Z_3 : ℝ) : ℝ :=
  Z_2 + deriv_v_r * Z_3

/-- `hydrostatic.py:340-348` (`deriv_v_r_func`). -/
noncomputable def deriv_v_r_func
    (Z_1 Z_2 Z_3 Z_4 v_φ ρ a_0 dderiv_B_φ B_θ : ℝ) : ℝ :=
  (Z_1 * v_φ ^ 2 * ρ + 2 * a_0 * (v_φ * B_θ * dderiv_B_φ - Z_2 * Z_4)
    ) / (v_φ ^ 2 * ρ + 2 * a_0 * Z_3 * Z_4)

/-- Keyword arguments of `ode_system` (`hydrostatic.py:351-354`).
`store_internal` does not influence the derivatives. -/
structure Args where
  a_0 : ℝ
  norm_kepler_sq : ℝ
  init_con : St
  θ_scale : ℝ := 1
  η_derivs : Bool := true
  no_v_deriv : Bool := true

/-- `hydrostatic.py:425-440` (also `mod_hydro.py:463-478`): the radial field's
derivative. -/
noncomputable def deriv_B_r_val
    (θ B_φ B_θ v_r deriv_B_φ η_O η_A η_H b_r b_φ b_θ : ℝ) : ℝ :=
  (B_φ * (
      η_A * b_φ * (
        b_r * Real.tan θ -
        b_θ / 4
      ) + η_H * (
        b_r / 4 +
        b_θ * Real.tan θ
      )
    ) - deriv_B_φ * (
      η_H * b_θ +
      η_A * b_r * b_φ
    ) - v_r * B_θ
  ) / (
    η_O + η_A * (1 - b_φ) * (1 + b_φ)
  ) - B_θ / 4

/-- `hydrostatic.py:442-445` (also `mod_hydro.py:480-483`): the density's
derivative. -/
noncomputable def deriv_ρ_val
    (θ a_0 B_r B_φ B_θ v_φ ρ deriv_B_r deriv_B_φ : ℝ) : ℝ :=
  - ρ * v_φ ^ 2 * Real.tan θ - a_0 * (
    B_θ * B_r / 4 + B_r * deriv_B_r + B_φ * deriv_B_φ -
    B_φ ^ 2 * Real.tan θ
  )

/-- `hydrostatic.py:396-408`: `X`, `b`, `c` and the discriminant they form. -/
noncomputable def discriminant (P : Args) (θ : ℝ) (s : St) : ℝ :=
  let b_r := s.B_r / B_mag s
  let b_φ := s.B_φ / B_mag s
  let b_θ := s.B_θ / B_mag s
  let X := X_func (η_O := s.η_O) (η_A := s.η_A) (η_H := s.η_H) (b_θ := b_θ)
    (b_r := b_r) (b_φ := b_φ)
  let b := b_func (X := X) (v_r := s.v_r)
  let c := c_func (θ := θ) (norm_kepler_sq := P.norm_kepler_sq)
    (a_0 := P.a_0) (X := X) (v_r := s.v_r) (B_φ := s.B_φ) (B_θ := s.B_θ)
    (B_r := s.B_r) (ρ := s.ρ) (η_A := s.η_A) (η_O := s.η_O) (η_H := s.η_H)
    (b_φ := b_φ) (b_r := b_r) (b_θ := b_θ)
  b ^ 2 - 4 * c

/-- `hydrostatic.py:378-535`: the derivatives written for an accepted state at
angle `θ` (in radians). -/
noncomputable def rhsDerivs (P : Args) (θ : ℝ) (s : St) : St :=
  let η_O_0 := P.init_con.η_O
  let η_A_0 := P.init_con.η_A
  let η_H_0 := P.init_con.η_H
  let a_0 := P.a_0
  let B_r := s.B_r
  let B_φ := s.B_φ
  let B_θ := s.B_θ
  let v_r := s.v_r
  let v_φ := s.v_φ
  let ρ := s.ρ
  let η_O := s.η_O
  let η_A := s.η_A
  let η_H := s.η_H
  let b_r := B_r / B_mag s
  let b_φ := B_φ / B_mag s
  let b_θ := B_θ / B_mag s
  let X := X_func (η_O := η_O) (η_A := η_A) (η_H := η_H) (b_θ := b_θ)
    (b_r := b_r) (b_φ := b_φ)
  let b := b_func (X := X) (v_r := v_r)
  let c := c_func (θ := θ) (norm_kepler_sq := P.norm_kepler_sq) (a_0 := a_0)
    (X := X) (v_r := v_r) (B_φ := B_φ) (B_θ := B_θ) (B_r := B_r) (ρ := ρ)
    (η_A := η_A) (η_O := η_O) (η_H := η_H) (b_φ := b_φ) (b_r := b_r)
    (b_θ := b_θ)
  let deriv_B_φ := s.X
  let deriv_B_θ := B_θ * Real.tan θ - 3/4 * B_r
  let deriv_B_r := deriv_B_r_val (θ := θ) (B_φ := B_φ)
    (B_θ := B_θ) (v_r := v_r) (deriv_B_φ := deriv_B_φ) (η_O := η_O)
    (η_A := η_A) (η_H := η_H) (b_r := b_r) (b_φ := b_φ) (b_θ := b_θ)
  let deriv_ρ := deriv_ρ_val (θ := θ) (a_0 := a_0) (B_r := B_r) (B_φ := B_φ)
    (B_θ := B_θ) (v_φ := v_φ) (ρ := ρ) (deriv_B_r := deriv_B_r)
    (deriv_B_φ := deriv_B_φ)
  let deriv_η_scale := deriv_η_skw_func (deriv_ρ := deriv_ρ)
    (deriv_B_θ := deriv_B_θ) (ρ := ρ) (B_r := B_r) (B_φ := B_φ) (B_θ := B_θ)
    (deriv_B_r := deriv_B_r) (deriv_B_φ := deriv_B_φ)
  let deriv_η_O := if P.η_derivs then deriv_η_scale * η_O_0 else 0
  let deriv_η_A := if P.η_derivs then deriv_η_scale * η_A_0 else 0
  let deriv_η_H := if P.η_derivs then deriv_η_scale * η_H_0 else 0
  let u := B_unit_derivs (B_r := B_r) (B_φ := B_φ) (B_θ := B_θ)
    (deriv_B_r := deriv_B_r) (deriv_B_φ := deriv_B_φ)
    (deriv_B_θ := deriv_B_θ) (b_r := b_r) (b_θ := b_θ) (b_φ := b_φ)
  let deriv_b_r := u.1
  let deriv_b_φ := u.2.1
  let deriv_b_θ := u.2.2
  let C := C_func (η_O := η_O) (η_A := η_A) (η_H := η_H) (b_θ := b_θ)
    (b_r := b_r) (b_φ := b_φ)
  let A := A_func (η_O := η_O) (η_A := η_A) (η_H := η_H) (b_θ := b_θ)
    (b_r := b_r) (b_φ := b_φ) (deriv_η_O := deriv_η_O)
    (deriv_η_A := deriv_η_A) (deriv_η_H := deriv_η_H)
    (deriv_b_θ := deriv_b_θ) (deriv_b_r := deriv_b_r) (deriv_b_φ := deriv_b_φ)
  let X_dash := X_dash_func (η_O := η_O) (η_A := η_A) (η_H := η_H) (b_θ := b_θ)
    (b_r := b_r) (b_φ := b_φ) (deriv_η_O := deriv_η_O)
    (deriv_η_A := deriv_η_A) (deriv_η_H := deriv_η_H)
    (deriv_b_θ := deriv_b_θ) (deriv_b_r := deriv_b_r) (deriv_b_φ := deriv_b_φ)
  let Z_1 := Z_1_func (θ := θ) (a_0 := a_0) (B_φ := B_φ) (B_θ := B_θ)
    (B_r := B_r) (ρ := ρ) (deriv_B_r := deriv_B_r) (deriv_B_φ := deriv_B_φ)
    (deriv_B_θ := deriv_B_θ) (v_φ := v_φ) (deriv_ρ := deriv_ρ)
  let Z_2 := Z_2_func (θ := θ) (a_0 := a_0) (X := X) (v_r := v_r) (B_φ := B_φ)
    (B_θ := B_θ) (B_r := B_r) (ρ := ρ) (η_A := η_A) (η_O := η_O) (η_H := η_H)
    (b_φ := b_φ) (b_r := b_r) (b_θ := b_θ) (X_dash := X_dash)
    (deriv_B_r := deriv_B_r) (deriv_B_φ := deriv_B_φ) (deriv_B_θ := deriv_B_θ)
    (deriv_ρ := deriv_ρ) (b := b) (c := c) (deriv_b_θ := deriv_b_θ)
    (deriv_b_φ := deriv_b_φ) (deriv_b_r := deriv_b_r)
    (deriv_η_O := deriv_η_O) (deriv_η_A := deriv_η_A) (deriv_η_H := deriv_η_H)
  let Z_3 := Z_3_func (X := X) (v_r := v_r) (a_0 := a_0) (B_θ := B_θ) (ρ := ρ)
    (η_O := η_O) (η_A := η_A) (b_φ := b_φ) (b := b) (c := c)
  let Z_4 := Z_4_func (B_θ := B_θ) (B_r := B_r) (B_φ := B_φ)
    (deriv_B_φ := deriv_B_φ) (θ := θ)
  let Z_5 := Z_5_func (η_O := η_O) (η_A := η_A) (η_H := η_H) (b_r := b_r)
    (b_θ := b_θ) (b_φ := b_φ) (C := C)
  let Z_6 := Z_6_func (C := C) (Z_3 := Z_3) (Z_4 := Z_4) (Z_5 := Z_5)
    (a_0 := a_0) (B_θ := B_θ) (v_φ := v_φ) (ρ := ρ)
  let Z_7 := Z_7_func (C := C) (Z_1 := Z_1) (Z_2 := Z_2) (Z_3 := Z_3)
    (Z_4 := Z_4) (a_0 := a_0) (v_φ := v_φ) (ρ := ρ)
  let dderiv_B_φ := dderiv_B_φ_func (B_φ := B_φ) (B_θ := B_θ) (η_O := η_O)
    (η_H := η_H) (η_A := η_A) (θ := θ) (v_r := v_r) (v_φ := v_φ)
    (deriv_B_r := deriv_B_r) (deriv_B_θ := deriv_B_θ) (deriv_B_φ := deriv_B_φ)
    (deriv_η_O := deriv_η_O) (deriv_η_A := deriv_η_A) (deriv_η_H := deriv_η_H)
    (A := A) (C := C) (b_r := b_r) (b_θ := b_θ) (b_φ := b_φ) (Z_6 := Z_6)
    (Z_7 := Z_7) (deriv_b_θ := deriv_b_θ) (deriv_b_φ := deriv_b_φ)
    (deriv_b_r := deriv_b_r)
  let deriv_v_r := deriv_v_r_func (a_0 := a_0) (B_θ := B_θ) (v_φ := v_φ)
    (ρ := ρ) (dderiv_B_φ := dderiv_B_φ) (Z_1 := Z_1) (Z_2 := Z_2) (Z_3 := Z_3)
    (Z_4 := Z_4)
  let deriv_v_φ := deriv_v_φ_func (Z_2 := Z_2) (Z_3 := Z_3)
    (deriv_v_r := deriv_v_r)
  { B_r := deriv_B_r, B_φ := deriv_B_φ, B_θ := deriv_B_θ,
    v_r := if P.no_v_deriv then 0 else deriv_v_r,
    v_φ := if P.no_v_deriv then 0 else deriv_v_φ,
    v_θ := 0, ρ := deriv_ρ, X := dderiv_B_φ, η_O := deriv_η_O,
    η_A := deriv_η_A, η_H := deriv_η_H }

/-- The result of one call of `rhs_equation` (`hydrostatic.py:372-553`): the
return code and the derivative array if it was written.  `x` is the scaled
angle.  Recording of internal data is left out (it is modelled for the main
solver in `Verif.Model.Rhs`). -/
noncomputable def rhs_equation (P : Args) (x : ℝ) (s : St) : ℤ × Option St :=
  if s.ρ < 0 then (1, none)
  else if discriminant P (scaled_to_rad x P.θ_scale) s < 0 then (1, none)
  else (0, some (rhsDerivs P (scaled_to_rad x P.θ_scale) s))

/-- `run.solutions["0"] = soln; run.final_solution = run.solutions["0"]`
(`hydrostatic.py:683-684`, `mod_hydro.py:727-728`).  The run is returned also
when setting the final solution fails, since the first assignment has already
happened. -/
def storeSingle {μ σ : Type} (run : Run μ σ) (soln : σ) :
    Run μ σ × Except PyErr Bool :=
  let run' := { run with solutions := Dict.set run.solutions "0" soln }
  match run'.setFinal soln with
  | .error e => (run', .error e)
  | .ok r => (r, .ok true)

/-- `hydrostatic.py:624-685` (`solution` and `solver`).  `integrate` is the
integration of the given conditions (`hydrostatic_solution` and the `Solution`
constructor), which may raise.  `solver` never asks for fixed velocities
(`no_v_deriv` keeps its default `False` in `solution`). -/
noncomputable def solver {μ σ : Type} (integrate : Conditions → Except PyErr σ)
    (inp : NumInput) (run : Run μ σ) : Run μ σ × Except PyErr Bool :=
  match hydrostatic_define_conditions inp with
  | none => (run, .error .SolverError)
  | some c =>
    if inp.use_E_r then (run, .error .SolverError)
    else
      match integrate c with
      | .error e => (run, .error e)
      | .ok s => storeSingle run s

end DiscSolver.Hydro
