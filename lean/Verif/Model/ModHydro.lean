import Verif.Model.Hydro

/-!
# The modified hydrostatic solver

`src/disc_solver/solve/mod_hydro.py`, line by line.  It balances the disc
against a rotation law linearised about Keplerian rotation, and in its `E_r`
mode computes the velocities algebraically, the radial one as the root of a
cubic which an external root tracker returns.
-/

namespace DiscSolver.ModHydro

open Hydro (X_func X_dash_func Z_1_func Z_4_func dderiv_B_φ_func deriv_B_r_val
  deriv_ρ_val)

/-- `mod_hydro.py:69-71`: the rotation speed at the midplane. -/
noncomputable def v_φ_mid (v_r η_H η_P norm_kepler_sq a_0 : ℝ) : ℝ :=
  (2 * norm_kepler_sq - 5 / 2 + v_r * (a_0 / η_P - v_r / 2)) / (
    2 * Real.sqrt norm_kepler_sq - v_r * η_H / (2 * η_P)
  )

/-- `mod_hydro.py:48-102` (`mod_hydro_define_conditions`).  Over exact reals
nothing here is NaN unless a denominator vanishes, and the theorems assume the
denominators nonzero, so there is no failing outcome. -/
noncomputable def mod_hydro_define_conditions (inp : NumInput) : Conditions :=
  let ρ : ℝ := 1
  let B_θ : ℝ := 1
  let v_θ : ℝ := 0
  let B_r : ℝ := 0
  let B_φ : ℝ := 0
  let v_r := - inp.v_rin_on_c_s
  let a_0 := inp.v_a_on_c_s ^ 2
  let norm_kepler_sq := 1 / inp.c_s_on_v_k ^ 2
  let η_O := inp.η_O
  let η_A := inp.η_A
  let η_H := inp.η_H
  let η_P := η_O + η_A
  let η_perp_sq := η_P ^ 2 + η_H ^ 2
  let v_φ := v_φ_mid (v_r := v_r) (η_H := η_H) (η_P := η_P)
    (norm_kepler_sq := norm_kepler_sq) (a_0 := a_0)
  let X := if inp.use_E_r then
      E_r_boundary_func (v_r := v_r) (v_φ := v_φ) (η_P := η_P) (η_H := η_H)
        (η_perp_sq := η_perp_sq) (a_0 := a_0)
    else
      B_φ_prime_boundary_func (v_r := v_r) (v_φ := v_φ) (a_0 := a_0)
  let init_con : St :=
    { B_r := B_r, B_φ := B_φ, B_θ := B_θ, v_r := v_r, v_φ := v_φ, v_θ := v_θ,
      ρ := ρ, X := X, η_O := η_O, η_A := η_A, η_H := η_H }
  let angles := (linspace inp.start inp.stop inp.num_angles).map radians
  { norm_kepler_sq := norm_kepler_sq, a_0 := a_0, init_con := init_con,
    angles := angles, γ := 0 }

/-- `mod_hydro.py:105-163` (`Z_2_func`). -/
noncomputable def Z_2_func
    (θ a_0 X v_r B_φ B_θ ρ η_A η_O η_H b_φ b_r b_θ X_dash deriv_B_φ deriv_B_θ
      deriv_b_θ deriv_b_φ deriv_b_r deriv_η_O deriv_η_A deriv_η_H deriv_ρ
      norm_kepler : ℝ) : ℝ :=
  - a_0 / ρ * (
    deriv_B_φ * B_φ / 2 - deriv_B_θ * deriv_B_φ * X -
    B_θ * deriv_B_φ * X_dash - deriv_ρ / ρ * (
      B_φ ^ 2 / 4 - X * deriv_B_φ * B_θ -
      B_θ / (
        η_O + η_A * (1 - b_φ ^ 2)
      ) * (
        v_r * B_θ - B_φ * (
          η_A * b_φ * (
            b_r * Real.tan θ - b_θ / 4
          ) + η_H * (
            b_r / 4 + b_θ * Real.tan θ
          )
        )
      )
    ) - B_θ / (
      η_O + η_A * (1 - b_φ ^ 2)
    ) * (
      v_r * deriv_B_θ - deriv_B_φ * (
        η_A * b_φ * (
          b_r * Real.tan θ - b_θ / 4
        ) + η_H * (b_r / 4 + b_θ * Real.tan θ)
      ) - B_φ * (
        deriv_η_A * b_φ * (b_r * Real.tan θ - b_θ / 4) +
        η_A * deriv_b_φ * (b_r * Real.tan θ - b_θ / 4) + η_A * b_φ * (
          deriv_b_r * Real.tan θ + b_r * (Real.tan θ ^ 2 + 1) -
          deriv_b_θ / 4
        ) + deriv_η_H * (b_r / 4 + b_θ * Real.tan θ) + η_H * (
          deriv_b_r / 4 + deriv_b_θ * Real.tan θ + b_θ * (
            Real.tan θ ^ 2 + 1
          )
        )
      )
    ) - (
      deriv_B_θ / (
        η_O + η_A * (1 - b_φ ^ 2)
      ) - (
        B_θ * (
          deriv_η_O + deriv_η_A * (1 - b_φ ^ 2) -
          2 * η_A * deriv_b_φ * b_φ
        )
      ) / (
        (η_O + η_A * (1 - b_φ ^ 2)) ^ 2
      )
    ) * (
      v_r * B_θ - B_φ * (
        η_A * b_φ * (b_r * Real.tan θ - b_θ / 4) +
        η_H * (b_r / 4 + b_θ * Real.tan θ)
      )
    )
  ) / (2 * norm_kepler)

/-- `mod_hydro.py:166-170` (`Z_3_func`). -/
noncomputable def Z_3_func (v_r B_θ norm_kepler η_O η_A b_φ : ℝ) : ℝ :=
  B_θ ^ 2 / (η_O + η_A * (1 - b_φ ^ 2)) - v_r / (2 * norm_kepler)

/-- `mod_hydro.py:173-181` (`Z_6_func`). -/
noncomputable def Z_6_func
    (a_0 X v_r B_θ ρ Z_3 Z_5 norm_kepler C v_φ Z_4 : ℝ) : ℝ :=
  Z_5 + B_θ ^ 2 * (
    X / (2 * norm_kepler) + a_0 * (C + Z_3) * (
      2 * v_φ - Z_4 * X / norm_kepler
    ) / (v_φ ^ 2 * ρ - Z_3 * Z_4 * a_0 * v_r)
  )

/-- `mod_hydro.py:184-192` (`Z_7_func`). -/
noncomputable def Z_7_func
    (a_0 X v_r B_θ ρ Z_5 norm_kepler C v_φ Z_4 : ℝ) : ℝ :=
  Z_5 + B_θ ^ 2 * (
    X / norm_kepler + a_0 * (C - v_r / (2 * norm_kepler)) * (
      2 * norm_kepler * v_φ - Z_4 * X
    ) / (v_φ ^ 2 * ρ * norm_kepler - Z_4 * a_0 * v_r)
  )

/-- `mod_hydro.py:195-211` (`Z_8_func`). -/
noncomputable def Z_8_func
    (θ b_r b_θ b_φ B_φ η_O η_A η_H E_r Z_5 C : ℝ) : ℝ :=
  (- E_r + B_φ * (
      Real.tan θ * (η_O + η_A * (1 - b_r ^ 2)) + (
        η_H * b_φ + η_A * b_r * b_θ
      ) / 4 - C * (
        η_A * b_φ * (
          b_r * Real.tan θ - b_θ / 4
        ) + η_H * (
          b_r / 4 + b_θ * Real.tan θ
        )
      )
    )
  ) / Z_5

/-- `mod_hydro.py:214-218` (`deriv_B_φ_func`). -/
noncomputable def deriv_B_φ_func (Z_5 Z_8 v_r v_φ B_θ C : ℝ) : ℝ :=
  - B_θ / Z_5 * (v_φ + C * v_r) + Z_8

/-- `mod_hydro.py:221-230` (`v_φ_func`). -/
noncomputable def v_φ_func (θ a_0 ρ Z_5 Z_8 v_r B_r B_θ B_φ C : ℝ) : ℝ :=
  (B_θ * Z_8 - B_θ ^ 2 * C * v_r / Z_5 - B_r * B_φ / 4 -
    B_θ * B_φ * Real.tan θ
  ) / (
    B_θ ^ 2 / Z_5 + v_r * ρ / (2 * a_0)
  )

/-- `mod_hydro.py:245-283`: the coefficients `[a_3, a_2, a_1, a_0]` which
`v_r_func` hands to the root tracker. -/
noncomputable def v_r_coeffs
    (θ a_0 norm_kepler ρ Z_5 Z_8 B_r B_θ B_φ b_r b_θ b_φ η_O η_A η_H C X : ℝ) :
    ℝ × ℝ × ℝ × ℝ :=
  let a_3 := ρ / (8 * norm_kepler * a_0)
  let a_2 := B_θ ^ 2 / (4 * norm_kepler) * (
    (1 + C * X) / Z_5 - 1 / (η_O + η_A * (1 - b_φ ^ 2))
  )
  let a_1 := - B_θ ^ 2 * C / Z_5 * (
    1 + a_0 * B_θ ^ 2 * X / (2 * norm_kepler * ρ * Z_5)
  ) - ρ / (2 * a_0) * (
    norm_kepler - (
      5 / 2 + a_0 / ρ * (
        B_φ ^ 2 / 4 - Z_8 * B_θ * X +
        B_θ * B_φ / (η_O + η_A * (1 - b_φ ^ 2)) * (
          η_A * b_φ * (b_r * Real.tan θ - b_θ / 4) +
          η_H * (b_r / 4 + b_θ * Real.tan θ)
        )
      )
    ) / (2 * norm_kepler)
  ) + B_θ ^ 4 * a_0 / (2 * norm_kepler * Z_5 * ρ) * (
    C * X / Z_5 - 1 / (η_O + η_A * (1 - b_φ ^ 2))
  )
  let a_0' := (
    B_θ * Z_8 - B_r * B_φ / 4 - B_θ * B_φ * Real.tan θ
  ) * (
    1 + (a_0 * B_θ ^ 2 * X) / (2 * norm_kepler * ρ * Z_5)
  ) - B_θ ^ 2 / Z_5 * (
    norm_kepler - (
      5 / 2 + a_0 / ρ * (
        B_φ ^ 2 / 4 - Z_8 * B_θ * X +
        B_θ * B_φ / (η_O + η_A * (1 - b_φ ^ 2)) * (
          η_A * b_φ * (b_r * Real.tan θ - b_θ / 4) +
          η_H * (b_r / 4 + b_θ * Real.tan θ)
        )
      )
    ) / (2 * norm_kepler)
  )
  (a_3, a_2, a_1, a_0')

/-- `mod_hydro.py:287-293` (`deriv_v_φ_func`). -/
noncomputable def deriv_v_φ_func
    (Z_2 deriv_v_r dderiv_B_φ norm_kepler v_r X B_θ : ℝ) : ℝ :=
  Z_2 - deriv_v_r * v_r / (2 * norm_kepler) + dderiv_B_φ * B_θ * X / (
    2 * norm_kepler
  )

/-- `mod_hydro.py:296-307` (`deriv_v_r_func`). -/
noncomputable def deriv_v_r_func
    (Z_1 Z_2 Z_4 v_φ ρ a_0 dderiv_B_φ B_θ norm_kepler X v_r : ℝ) : ℝ :=
  (Z_1 * v_φ ^ 2 * ρ * norm_kepler - 2 * Z_2 * Z_4 * a_0 * norm_kepler +
    dderiv_B_φ * a_0 * B_θ * (2 * v_φ * norm_kepler - Z_4 * X)
  ) / (
    v_φ ^ 2 * ρ * norm_kepler - Z_4 * a_0 * v_r
  )

/-- Keyword arguments of `ode_system` (`mod_hydro.py:371-374`).  `tracker` is
`CubicTracker.solve_root` as it answers at the call being modelled: a function
of the coefficients.  The tracker remembers the previous root, so different
calls may use different functions; the theorems hold for every one. -/
structure Args where
  a_0 : ℝ
  norm_kepler_sq : ℝ
  init_con : St
  θ_scale : ℝ := 1
  η_derivs : Bool := true
  use_E_r : Bool := false
  tracker : ℝ × ℝ × ℝ × ℝ → ℝ

/-- `mod_hydro.py:422-461` (and `single_solve` in `fix_solution`,
`mod_hydro.py:325-363`): the velocities computed from the rest of the state in
`E_r` mode.  The state with `v_r` and `v_φ` replaced is what the code writes
back into `params`. -/
noncomputable def withVelocities (P : Args) (θ : ℝ) (s : St) : St :=
  let norm_kepler := Real.sqrt P.norm_kepler_sq
  let b_r := s.B_r / B_mag s
  let b_φ := s.B_φ / B_mag s
  let b_θ := s.B_θ / B_mag s
  let C := C_func (η_O := s.η_O) (η_A := s.η_A) (η_H := s.η_H) (b_θ := b_θ)
    (b_r := b_r) (b_φ := b_φ)
  let X := X_func (η_O := s.η_O) (η_A := s.η_A) (η_H := s.η_H) (b_θ := b_θ)
    (b_r := b_r) (b_φ := b_φ)
  let Z_5 := Z_5_func (η_O := s.η_O) (η_A := s.η_A) (η_H := s.η_H)
    (b_r := b_r) (b_θ := b_θ) (b_φ := b_φ) (C := C)
  let Z_8 := Z_8_func (θ := θ) (b_r := b_r) (b_θ := b_θ) (b_φ := b_φ)
    (B_φ := s.B_φ) (η_O := s.η_O) (η_A := s.η_A) (η_H := s.η_H) (E_r := s.X)
    (Z_5 := Z_5) (C := C)
  let v_r := P.tracker (v_r_coeffs (θ := θ) (a_0 := P.a_0)
    (norm_kepler := norm_kepler) (ρ := s.ρ) (Z_5 := Z_5) (Z_8 := Z_8)
    (B_r := s.B_r) (B_θ := s.B_θ) (B_φ := s.B_φ) (b_r := b_r) (b_θ := b_θ)
    (b_φ := b_φ) (η_O := s.η_O) (η_A := s.η_A) (η_H := s.η_H) (C := C)
    (X := X))
  let v_φ := v_φ_func (θ := θ) (a_0 := P.a_0) (ρ := s.ρ) (Z_5 := Z_5)
    (Z_8 := Z_8) (v_r := v_r) (B_r := s.B_r) (B_θ := s.B_θ) (B_φ := s.B_φ)
    (C := C)
  { s with v_r := v_r, v_φ := v_φ }

/-- `mod_hydro.py:402-587` in `E_r` mode, after the velocities have been
replaced: the derivatives written for the state `s`. -/
noncomputable def derivsE (P : Args) (θ : ℝ) (s : St) : St :=
  let b_r := s.B_r / B_mag s
  let b_φ := s.B_φ / B_mag s
  let b_θ := s.B_θ / B_mag s
  let C := C_func (η_O := s.η_O) (η_A := s.η_A) (η_H := s.η_H) (b_θ := b_θ)
    (b_r := b_r) (b_φ := b_φ)
  let Z_5 := Z_5_func (η_O := s.η_O) (η_A := s.η_A) (η_H := s.η_H)
    (b_r := b_r) (b_θ := b_θ) (b_φ := b_φ) (C := C)
  let Z_8 := Z_8_func (θ := θ) (b_r := b_r) (b_θ := b_θ) (b_φ := b_φ)
    (B_φ := s.B_φ) (η_O := s.η_O) (η_A := s.η_A) (η_H := s.η_H) (E_r := s.X)
    (Z_5 := Z_5) (C := C)
  let deriv_B_θ := s.B_θ * Real.tan θ - 3/4 * s.B_r
  let deriv_B_φ := deriv_B_φ_func (Z_5 := Z_5) (Z_8 := Z_8) (v_r := s.v_r)
    (v_φ := s.v_φ) (B_θ := s.B_θ) (C := C)
  let deriv_B_r := deriv_B_r_val (θ := θ) (B_φ := s.B_φ)
    (B_θ := s.B_θ) (v_r := s.v_r) (deriv_B_φ := deriv_B_φ) (η_O := s.η_O)
    (η_A := s.η_A) (η_H := s.η_H) (b_r := b_r) (b_φ := b_φ) (b_θ := b_θ)
  let deriv_ρ := deriv_ρ_val (θ := θ) (a_0 := P.a_0) (B_r := s.B_r)
    (B_φ := s.B_φ) (B_θ := s.B_θ) (v_φ := s.v_φ) (ρ := s.ρ)
    (deriv_B_r := deriv_B_r) (deriv_B_φ := deriv_B_φ)
  let deriv_η_scale := deriv_η_skw_func (deriv_ρ := deriv_ρ)
    (deriv_B_θ := deriv_B_θ) (ρ := s.ρ) (B_r := s.B_r) (B_φ := s.B_φ)
    (B_θ := s.B_θ) (deriv_B_r := deriv_B_r) (deriv_B_φ := deriv_B_φ)
  let J_r := J_r_func (θ := θ) (B_φ := s.B_φ) (deriv_B_φ := deriv_B_φ)
  let J_θ := J_θ_func (γ := 0) (B_φ := s.B_φ)
  let J_φ := J_φ_func (γ := 0) (B_θ := s.B_θ) (deriv_B_r := deriv_B_r)
  let deriv_E_r := deriv_E_r_func (γ := 0) (v_r := s.v_r) (v_φ := s.v_φ)
    (B_r := s.B_r) (B_φ := s.B_φ) (η_O := s.η_O) (η_A := s.η_A) (η_H := s.η_H)
    (b_r := b_r) (b_θ := b_θ) (b_φ := b_φ) (J_r := J_r) (J_φ := J_φ)
    (J_θ := J_θ)
  { B_r := deriv_B_r, B_φ := deriv_B_φ, B_θ := deriv_B_θ, v_r := 0, v_φ := 0,
    v_θ := 0, ρ := deriv_ρ, X := deriv_E_r,
    η_O := if P.η_derivs then deriv_η_scale * P.init_con.η_O else 0,
    η_A := if P.η_derivs then deriv_η_scale * P.init_con.η_A else 0,
    η_H := if P.η_derivs then deriv_η_scale * P.init_con.η_H else 0 }

/-- `mod_hydro.py:402-587` in `B_φ'` mode: the derivatives written for `s`. -/
noncomputable def derivsB (P : Args) (θ : ℝ) (s : St) : St :=
  let norm_kepler := Real.sqrt P.norm_kepler_sq
  let a_0 := P.a_0
  let B_r := s.B_r
  let B_φ := s.B_φ
  let B_θ := s.B_θ
  let v_r := s.v_r
  let v_φ := s.v_φ
  let ρ := s.ρ
  let η_O := s.η_O
  let η_A := s.η_A
  let η_H := s.η_H
  let b_r := B_r / B_mag s
  let b_φ := B_φ / B_mag s
  let b_θ := B_θ / B_mag s
  let C := C_func (η_O := η_O) (η_A := η_A) (η_H := η_H) (b_θ := b_θ)
    (b_r := b_r) (b_φ := b_φ)
  let X := X_func (η_O := η_O) (η_A := η_A) (η_H := η_H) (b_θ := b_θ)
    (b_r := b_r) (b_φ := b_φ)
  let Z_5 := Z_5_func (η_O := η_O) (η_A := η_A) (η_H := η_H) (b_r := b_r)
    (b_θ := b_θ) (b_φ := b_φ) (C := C)
  let deriv_B_θ := B_θ * Real.tan θ - 3/4 * B_r
  let deriv_B_φ := s.X
  let deriv_B_r := deriv_B_r_val (θ := θ) (B_φ := B_φ)
    (B_θ := B_θ) (v_r := v_r) (deriv_B_φ := deriv_B_φ) (η_O := η_O)
    (η_A := η_A) (η_H := η_H) (b_r := b_r) (b_φ := b_φ) (b_θ := b_θ)
  let deriv_ρ := deriv_ρ_val (θ := θ) (a_0 := a_0) (B_r := B_r) (B_φ := B_φ)
    (B_θ := B_θ) (v_φ := v_φ) (ρ := ρ) (deriv_B_r := deriv_B_r)
    (deriv_B_φ := deriv_B_φ)
  let deriv_η_scale := deriv_η_skw_func (deriv_ρ := deriv_ρ)
    (deriv_B_θ := deriv_B_θ) (ρ := ρ) (B_r := B_r) (B_φ := B_φ) (B_θ := B_θ)
    (deriv_B_r := deriv_B_r) (deriv_B_φ := deriv_B_φ)
  let deriv_η_O := if P.η_derivs then deriv_η_scale * P.init_con.η_O else 0
  let deriv_η_A := if P.η_derivs then deriv_η_scale * P.init_con.η_A else 0
  let deriv_η_H := if P.η_derivs then deriv_η_scale * P.init_con.η_H else 0
  let u := B_unit_derivs (B_r := B_r) (B_φ := B_φ) (B_θ := B_θ)
    (deriv_B_r := deriv_B_r) (deriv_B_φ := deriv_B_φ)
    (deriv_B_θ := deriv_B_θ) (b_r := b_r) (b_θ := b_θ) (b_φ := b_φ)
  let deriv_b_r := u.1
  let deriv_b_φ := u.2.1
  let deriv_b_θ := u.2.2
  let A := A_func (η_O := η_O) (η_A := η_A) (η_H := η_H) (b_θ := b_θ)
    (b_r := b_r) (b_φ := b_φ) (deriv_η_O := deriv_η_O)
    (deriv_η_A := deriv_η_A) (deriv_η_H := deriv_η_H)
    (deriv_b_θ := deriv_b_θ) (deriv_b_r := deriv_b_r) (deriv_b_φ := deriv_b_φ)
  let X_dash := X_dash_func (η_O := η_O) (η_A := η_A) (η_H := η_H) (b_θ := b_θ)
    (b_r := b_r) (b_φ := b_φ) (deriv_η_O := deriv_η_O)
    (deriv_η_A := deriv_η_A) (deriv_η_H := deriv_η_H)
    (deriv_b_θ := deriv_b_θ) (deriv_b_r := deriv_b_r) (deriv_b_φ := deriv_b_φ)
  let Z_1 := Z_1_func (θ := θ) (a_0 := a_0) (B_φ := B_φ) (B_θ := B_θ)
    (B_r := B_r) (ρ := ρ) (deriv_B_r := deriv_B_r) (deriv_B_φ := deriv_B_φ)
    (deriv_B_θ := deriv_B_θ) (v_φ := v_φ) (deriv_ρ := deriv_ρ)
  let Z_2 := Z_2_func (θ := θ) (a_0 := a_0) (X := X) (v_r := v_r) (B_φ := B_φ)
    (B_θ := B_θ) (ρ := ρ) (η_A := η_A) (η_O := η_O) (η_H := η_H) (b_φ := b_φ)
    (b_r := b_r) (b_θ := b_θ) (X_dash := X_dash) (deriv_B_φ := deriv_B_φ)
    (deriv_B_θ := deriv_B_θ) (deriv_b_θ := deriv_b_θ) (deriv_b_φ := deriv_b_φ)
    (deriv_b_r := deriv_b_r) (deriv_η_O := deriv_η_O) (deriv_η_A := deriv_η_A)
    (deriv_η_H := deriv_η_H) (deriv_ρ := deriv_ρ) (norm_kepler := norm_kepler)
  let Z_3 := Z_3_func (v_r := v_r) (B_θ := B_θ) (norm_kepler := norm_kepler)
    (η_O := η_O) (η_A := η_A) (b_φ := b_φ)
  let Z_4 := Z_4_func (B_θ := B_θ) (B_r := B_r) (B_φ := B_φ)
    (deriv_B_φ := deriv_B_φ) (θ := θ)
  let Z_6 := Z_6_func (a_0 := a_0) (X := X) (v_r := v_r) (B_θ := B_θ) (ρ := ρ)
    (Z_5 := Z_5) (norm_kepler := norm_kepler) (C := C) (v_φ := v_φ)
    (Z_4 := Z_4) (Z_3 := Z_3)
  let Z_7 := Z_7_func (a_0 := a_0) (X := X) (v_r := v_r) (B_θ := B_θ) (ρ := ρ)
    (Z_5 := Z_5) (norm_kepler := norm_kepler) (C := C) (v_φ := v_φ)
    (Z_4 := Z_4)
  let dderiv_B_φ := dderiv_B_φ_func (B_φ := B_φ) (B_θ := B_θ) (η_O := η_O)
    (η_H := η_H) (η_A := η_A) (θ := θ) (v_r := v_r) (v_φ := v_φ)
    (deriv_B_r := deriv_B_r) (deriv_B_θ := deriv_B_θ) (deriv_B_φ := deriv_B_φ)
    (deriv_η_O := deriv_η_O) (deriv_η_A := deriv_η_A) (deriv_η_H := deriv_η_H)
    (A := A) (C := C) (b_r := b_r) (b_θ := b_θ) (b_φ := b_φ) (Z_6 := Z_6)
    (Z_7 := Z_7) (deriv_b_θ := deriv_b_θ) (deriv_b_φ := deriv_b_φ)
    (deriv_b_r := deriv_b_r)
  let deriv_v_r := deriv_v_r_func (a_0 := a_0) (B_θ := B_θ) (v_φ := v_φ)
    (ρ := ρ) (dderiv_B_φ := dderiv_B_φ) (Z_1 := Z_1) (Z_2 := Z_2) (Z_4 := Z_4)
    (norm_kepler := norm_kepler) (X := X) (v_r := v_r)
  let deriv_v_φ := deriv_v_φ_func (Z_2 := Z_2) (deriv_v_r := deriv_v_r)
    (dderiv_B_φ := dderiv_B_φ) (norm_kepler := norm_kepler) (v_r := v_r)
    (X := X) (B_θ := B_θ)
  { B_r := deriv_B_r, B_φ := deriv_B_φ, B_θ := deriv_B_θ, v_r := deriv_v_r,
    v_φ := deriv_v_φ, v_θ := 0, ρ := deriv_ρ, X := dderiv_B_φ,
    η_O := deriv_η_O, η_A := deriv_η_A, η_H := deriv_η_H }

/-- The result of one call of `rhs_equation` (`mod_hydro.py:397-605`): the
return code, the parameter array afterwards (the code overwrites the velocities
in `E_r` mode) and the derivative array if it was written.  `x` is the scaled
angle.  Recording of internal data is left out. -/
noncomputable def rhs_equation (P : Args) (x : ℝ) (s : St) :
    ℤ × St × Option St :=
  let θ := scaled_to_rad x P.θ_scale
  if s.ρ < 0 then (1, s, none)
  else if P.use_E_r then
    (0, withVelocities P θ s, some (derivsE P θ (withVelocities P θ s)))
  else (0, s, some (derivsB P θ s))

/-- `mod_hydro.py:310-368` (`fix_solution`): one stored row at scaled angle
`x`; rows are rewritten only in `E_r` mode.  The loop uses a fresh tracker whose
memory runs along the rows, so `P.tracker` stands for its answer at this row. -/
noncomputable def fixRow (P : Args) (x : ℝ) (s : St) : St :=
  if P.use_E_r then withVelocities P (scaled_to_rad x P.θ_scale) s else s

/-- `mod_hydro.py:681-729` (`solution` and `solver`).  `integrate` is the
integration of the given conditions, which may raise. -/
noncomputable def solver {μ σ : Type} (integrate : Conditions → Except PyErr σ)
    (inp : NumInput) (run : Run μ σ) : Run μ σ × Except PyErr Bool :=
  match integrate (mod_hydro_define_conditions inp) with
  | .error e => (run, .error e)
  | .ok s => Hydro.storeSingle run s

end DiscSolver.ModHydro
