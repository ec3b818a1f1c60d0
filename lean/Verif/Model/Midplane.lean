import Verif.Model.Conditions

/-!
# Taylor series at the midplane

`src/disc_solver/solve/deriv_midplane.py`, line by line.
-/

namespace DiscSolver

/-- `deriv_midplane.py:18-22`. -/
noncomputable def dderiv_b_θ_midplane (deriv_B_r deriv_B_φ : ℝ) : ℝ :=
  - (deriv_B_r ^ 2 + deriv_B_φ ^ 2)

/-- `deriv_midplane.py:25-29`. -/
noncomputable def midplane_C_func (η_H η_P : ℝ) : ℝ := η_H / η_P

/-- `deriv_midplane.py:32-43`. -/
noncomputable def midplane_deriv_A_func
    (dderiv_η_H dderiv_b_θ C η_A deriv_b_φ deriv_b_r η_P η_H dderiv_η_P : ℝ) :
    ℝ :=
  (dderiv_η_H + η_H * dderiv_b_θ - 2 * η_A * deriv_b_r * deriv_b_φ - C * (
      dderiv_η_P - 2 * η_A * deriv_b_φ ^ 2)) / η_P

/-- `deriv_midplane.py:46-50`. -/
noncomputable def midplane_Z_5_func (η_perp_sq η_P : ℝ) : ℝ := η_perp_sq / η_P

/-- `deriv_midplane.py:53-62`. -/
noncomputable def dderiv_Z_5_midplane
    (dderiv_η_P η_A deriv_b_φ deriv_A η_H C dderiv_η_H dderiv_b_θ
      deriv_b_r : ℝ) : ℝ :=
  dderiv_η_P - 2 * η_A * deriv_b_φ ^ 2 + deriv_A * η_H + C * (
    dderiv_η_H + η_H * dderiv_b_θ - 2 * η_A * deriv_b_r * deriv_b_φ)

/-- `deriv_midplane.py:65-71`. -/
noncomputable def Y_1_func (v_r v_φ deriv_B_r deriv_B_φ γ a_0 : ℝ) : ℝ :=
  v_φ ^ 2 + a_0 * (
    deriv_B_r * (1/4 - γ + deriv_B_r) + deriv_B_φ ^ 2
  ) - v_r ^ 2 * γ * (1 - 4 * γ) / 2

/-- `deriv_midplane.py:74-85`. -/
noncomputable def Y_2_func
    (deriv_B_r deriv_v_θ v_r dderiv_B_θ deriv_B_φ dderiv_η_H η_H
      deriv_b_r γ dderiv_b_θ dderiv_η_P η_A η_P : ℝ) : ℝ :=
  (deriv_v_θ * deriv_B_r - v_r * dderiv_B_θ - deriv_B_φ * (
      dderiv_η_H + η_H * (deriv_b_r * (1/4 - γ) + 1 + dderiv_b_θ)
    ) - (dderiv_η_P - 2 * η_A * deriv_b_r ^ 2) * (deriv_B_r + 1/4 - γ)
  ) / η_P - dderiv_B_θ * (1/4 - γ)

/-- `deriv_midplane.py:88-105`. -/
noncomputable def Y_3_func
    (deriv_A v_r C deriv_v_θ deriv_B_r dderiv_B_θ dderiv_E_r v_φ
      deriv_B_φ η_P γ η_H deriv_b_φ η_A deriv_b_r dderiv_Z_5 Z_5 : ℝ) : ℝ :=
  - (deriv_A * v_r - C * (
      deriv_v_θ * deriv_B_r - v_r * dderiv_B_θ
    ) + dderiv_E_r + v_φ * dderiv_B_θ - deriv_B_φ * (
      deriv_v_θ + η_P + (1/4 - γ) * (
        η_H * deriv_b_φ + η_A * deriv_b_r
      ) + C * (
        η_A * deriv_b_φ * (1/4 - γ) - η_H * (deriv_b_r * (1/4 - γ) + 1)
      )
    ) + deriv_B_φ * dderiv_Z_5) / Z_5

/-- `deriv_midplane.py:108-114`. -/
noncomputable def Y_4_func (a_0 v_r v_φ deriv_B_r deriv_B_φ γ Y_2 Y_1 : ℝ) :
    ℝ :=
  2 * a_0 * (
    Y_2 - deriv_B_φ * (deriv_B_r * (5/4 - γ) - Y_1)
  ) - 4 * γ * v_r * v_φ

/-- `deriv_midplane.py:117-121`. -/
noncomputable def Y_5_func (a_0 v_r γ Z_5 : ℝ) : ℝ :=
  v_r * (1 - 8 * γ) + 2 * a_0 / Z_5

/-- `deriv_midplane.py:124-132`. -/
noncomputable def Y_6_func (v_φ Y_5 a_0 C Z_5 γ v_r η_P η_H : ℝ) : ℝ :=
  v_φ / Y_5 * (
    2 * a_0 * C / Z_5 + v_φ
  ) - (4 * γ + 1) * v_r / 2 - a_0 / (2 * η_P) * (
    C * η_H / Z_5 - 1 - η_H * (2 * a_0 * C / Z_5 + v_φ) / (Z_5 * Y_5))

/-- `deriv_midplane.py:135-143`. -/
noncomputable def dderiv_E_r_midplane
    (v_r v_φ deriv_B_r deriv_B_φ γ η_H η_P : ℝ) : ℝ :=
  - (3 / 4 - γ) * (
    deriv_B_r * (v_φ - η_H * (1 / 4 - γ)) - deriv_B_φ * (
      v_r + η_P * (1 / 4 - γ)
    ) - η_H * (deriv_B_φ ^ 2 + deriv_B_r ^ 2))

/-- `deriv_midplane.py:146-160`. -/
noncomputable def dderiv_v_r_midplane
    (a_0 Y_3 Y_2 Y_1 Y_6 Y_5 Y_4 η_H η_P Z_5 v_φ v_r γ
      dderiv_B_θ deriv_B_r deriv_B_φ : ℝ) : ℝ :=
  (a_0 / 2 * (
      Y_3 - Y_2 * η_H / η_P + η_H * Y_4 / (η_P * Y_5 * Z_5)
    ) + v_φ * Y_4 / Y_5 + 4 * γ ^ 2 * v_r ^ 2 + a_0 / 2 * (
      dderiv_B_θ * deriv_B_r + 2 * deriv_B_φ ^ 2 * (1 / 4 - γ) +
      2 * dderiv_B_θ * (1 / 4 - γ) + Y_1 * (deriv_B_r + (1 / 4 - γ))
    )) / Y_6

/-- `deriv_midplane.py:163-167`. -/
noncomputable def dderiv_v_φ_midplane (a_0 v_φ dderiv_v_r C Z_5 Y_5 Y_4 : ℝ) :
    ℝ :=
  Y_4 / Y_5 - dderiv_v_r / Y_5 * (2 * a_0 * C / Z_5 + v_φ)

/-- `deriv_midplane.py:170-174`. -/
noncomputable def ddderiv_B_φ_midplane (dderiv_v_r dderiv_v_φ Y_2 C Z_5 : ℝ) :
    ℝ :=
  Y_2 - (C * dderiv_v_r + dderiv_v_φ) / Z_5

/-- `deriv_midplane.py:177-181`. -/
noncomputable def ddderiv_B_r_midplane
    (Y_3 η_H η_P dderiv_v_r dderiv_B_φ_prime : ℝ) : ℝ :=
  Y_3 - (η_H * dderiv_B_φ_prime + dderiv_v_r) / η_P

/-- `deriv_midplane.py:184-188`. -/
noncomputable def ddderiv_v_θ_midplane (dderiv_ρ dderiv_v_r v_r γ : ℝ) : ℝ :=
  4 * γ * v_r * (dderiv_ρ - 1 - dderiv_v_r / (2 * v_r))

/-- `deriv_midplane.py:191-195`. -/
noncomputable def dderiv_η_skw_midplane
    (dderiv_ρ deriv_B_r deriv_B_φ dderiv_B_θ : ℝ) : ℝ :=
  2 * (deriv_B_r ^ 2 + deriv_B_φ ^ 2 + dderiv_B_θ) - dderiv_ρ

/-- `deriv_midplane.py:198-202`. -/
noncomputable def deriv_B_r_midplane_func (γ deriv_B_φ η_H η_P v_r : ℝ) : ℝ :=
  γ - 1/4 - (deriv_B_φ * η_H + v_r) / η_P

/-- `deriv_midplane.py:205-346` (`taylor_series`).  The result is the `derivs`
array: second derivatives of `B_θ, ρ, v_r, v_φ, η_*` (and of `E_r` or
`B_φ_prime` in slot 7), third derivatives of `B_r, v_θ, B_φ`.  Log output is
not modelled. -/
noncomputable def taylor_series (γ a_0 : ℝ) (init_con : St)
    (η_derivs use_E_r : Bool) : St :=
  let v_r := init_con.v_r
  let v_φ := init_con.v_φ
  let η_O := init_con.η_O
  let η_A := init_con.η_A
  let η_H := init_con.η_H
  let deriv_B_φ := B_φ_prime_boundary_func (v_r := v_r) (v_φ := v_φ) (a_0 := a_0)
  let η_P := η_O + η_A
  let η_perp_sq := η_P ^ 2 + η_H ^ 2
  let deriv_v_θ := - 2 * γ * v_r
  let deriv_B_r := deriv_B_r_midplane_func (γ := γ) (deriv_B_φ := deriv_B_φ)
    (η_H := η_H) (η_P := η_P) (v_r := v_r)
  let dderiv_B_θ := 1 - (γ + 3/4) * deriv_B_r
  let dderiv_E_r := dderiv_E_r_midplane (v_r := v_r) (v_φ := v_φ)
    (deriv_B_r := deriv_B_r) (deriv_B_φ := deriv_B_φ) (γ := γ) (η_H := η_H)
    (η_P := η_P)
  let Y_1 := Y_1_func (v_r := v_r) (v_φ := v_φ) (deriv_B_r := deriv_B_r)
    (deriv_B_φ := deriv_B_φ) (γ := γ) (a_0 := a_0)
  let dderiv_ρ := - Y_1
  let dderiv_η_scale :=
    if η_derivs then
      dderiv_η_skw_midplane (dderiv_ρ := dderiv_ρ) (dderiv_B_θ := dderiv_B_θ)
        (deriv_B_r := deriv_B_r) (deriv_B_φ := deriv_B_φ)
    else 0
  let dderiv_η_O := dderiv_η_scale * η_O
  let dderiv_η_A := dderiv_η_scale * η_A
  let dderiv_η_H := dderiv_η_scale * η_H
  let dderiv_η_P := dderiv_η_O + dderiv_η_A
  let dderiv_b_θ := dderiv_b_θ_midplane (deriv_B_r := deriv_B_r)
    (deriv_B_φ := deriv_B_φ)
  let deriv_b_r := deriv_B_r
  let deriv_b_φ := deriv_B_φ
  let C := midplane_C_func (η_H := η_H) (η_P := η_P)
  let deriv_A := midplane_deriv_A_func (dderiv_η_H := dderiv_η_H)
    (dderiv_b_θ := dderiv_b_θ) (C := C) (η_A := η_A) (deriv_b_φ := deriv_b_φ)
    (deriv_b_r := deriv_b_r) (η_P := η_P) (η_H := η_H)
    (dderiv_η_P := dderiv_η_P)
  let Z_5 := midplane_Z_5_func (η_perp_sq := η_perp_sq) (η_P := η_P)
  let dderiv_Z_5 := dderiv_Z_5_midplane (dderiv_η_P := dderiv_η_P) (η_A := η_A)
    (deriv_b_φ := deriv_b_φ) (deriv_A := deriv_A) (η_H := η_H) (C := C)
    (dderiv_η_H := dderiv_η_H) (dderiv_b_θ := dderiv_b_θ)
    (deriv_b_r := deriv_b_r)
  let Y_2 := Y_2_func (deriv_B_r := deriv_B_r) (deriv_v_θ := deriv_v_θ)
    (v_r := v_r) (dderiv_B_θ := dderiv_B_θ) (deriv_B_φ := deriv_B_φ)
    (dderiv_η_H := dderiv_η_H) (η_H := η_H) (deriv_b_r := deriv_b_r) (γ := γ)
    (dderiv_b_θ := dderiv_b_θ) (dderiv_η_P := dderiv_η_P) (η_A := η_A)
    (η_P := η_P)
  let Y_3 := Y_3_func (deriv_A := deriv_A) (v_r := v_r) (C := C)
    (deriv_v_θ := deriv_v_θ) (deriv_B_r := deriv_B_r)
    (dderiv_B_θ := dderiv_B_θ) (dderiv_E_r := dderiv_E_r) (v_φ := v_φ)
    (deriv_B_φ := deriv_B_φ) (η_P := η_P) (γ := γ) (η_H := η_H)
    (deriv_b_φ := deriv_b_φ) (η_A := η_A) (deriv_b_r := deriv_b_r)
    (dderiv_Z_5 := dderiv_Z_5) (Z_5 := Z_5)
  let Y_4 := Y_4_func (a_0 := a_0) (v_r := v_r) (v_φ := v_φ)
    (deriv_B_r := deriv_B_r) (deriv_B_φ := deriv_B_φ) (γ := γ) (Y_2 := Y_2)
    (Y_1 := Y_1)
  let Y_5 := Y_5_func (a_0 := a_0) (v_r := v_r) (γ := γ) (Z_5 := Z_5)
  let Y_6 := Y_6_func (v_φ := v_φ) (Y_5 := Y_5) (a_0 := a_0) (C := C)
    (Z_5 := Z_5) (γ := γ) (v_r := v_r) (η_P := η_P) (η_H := η_H)
  let dderiv_v_r := dderiv_v_r_midplane (a_0 := a_0) (Y_3 := Y_3) (Y_2 := Y_2)
    (Y_1 := Y_1) (Y_6 := Y_6) (Y_5 := Y_5) (Y_4 := Y_4) (η_H := η_H)
    (η_P := η_P) (Z_5 := Z_5) (v_φ := v_φ) (v_r := v_r) (γ := γ)
    (dderiv_B_θ := dderiv_B_θ) (deriv_B_r := deriv_B_r)
    (deriv_B_φ := deriv_B_φ)
  let dderiv_v_φ := dderiv_v_φ_midplane (a_0 := a_0) (v_φ := v_φ)
    (dderiv_v_r := dderiv_v_r) (C := C) (Z_5 := Z_5) (Y_5 := Y_5) (Y_4 := Y_4)
  let dderiv_B_φ_prime := ddderiv_B_φ_midplane (dderiv_v_r := dderiv_v_r)
    (dderiv_v_φ := dderiv_v_φ) (Y_2 := Y_2) (C := C) (Z_5 := Z_5)
  let ddderiv_B_r := ddderiv_B_r_midplane (Y_3 := Y_3) (η_H := η_H)
    (η_P := η_P) (dderiv_v_r := dderiv_v_r)
    (dderiv_B_φ_prime := dderiv_B_φ_prime)
  let ddderiv_v_θ := ddderiv_v_θ_midplane (dderiv_ρ := dderiv_ρ)
    (dderiv_v_r := dderiv_v_r) (v_r := v_r) (γ := γ)
  { B_r := ddderiv_B_r, B_φ := dderiv_B_φ_prime, B_θ := dderiv_B_θ,
    v_r := dderiv_v_r, v_φ := dderiv_v_φ, v_θ := ddderiv_v_θ, ρ := dderiv_ρ,
    X := if use_E_r then dderiv_E_r else dderiv_B_φ_prime,
    η_O := dderiv_η_O, η_A := dderiv_η_A, η_H := dderiv_η_H }

/-- `deriv_midplane.py:349-373` (`get_taylor_first_order`). -/
noncomputable def get_taylor_first_order (init_con : St) (γ a_0 : ℝ) : St :=
  let v_r := init_con.v_r
  let v_φ := init_con.v_φ
  let η_O := init_con.η_O
  let η_A := init_con.η_A
  let η_H := init_con.η_H
  let η_P := η_O + η_A
  let B_φ_prime := B_φ_prime_boundary_func (v_r := v_r) (v_φ := v_φ) (a_0 := a_0)
  { St.zero with
    B_r := deriv_B_r_midplane_func (γ := γ) (deriv_B_φ := B_φ_prime)
      (η_H := η_H) (η_P := η_P) (v_r := v_r)
    B_φ := B_φ_prime
    v_θ := - 2 * γ * v_r }

/-- `deriv_midplane.py:376-404` (`get_taylor_second_order`). -/
noncomputable def get_taylor_second_order (init_con : St) (γ a_0 : ℝ)
    (η_derivs use_E_r : Bool) : St :=
  let derivs := taylor_series γ a_0 init_con η_derivs use_E_r
  { St.zero with
    B_θ := derivs.B_θ
    ρ := derivs.ρ
    v_r := derivs.v_r
    v_φ := derivs.v_φ
    η_O := derivs.η_O
    η_A := derivs.η_A
    η_H := derivs.η_H
    X := if use_E_r then derivs.X else derivs.X }

/-- `deriv_midplane.py:407-426` (`get_taylor_third_order`), including line 423,
which stores `derivs[v_φ]` in the `v_θ` slot. -/
noncomputable def get_taylor_third_order (init_con : St) (γ a_0 : ℝ)
    (η_derivs use_E_r : Bool) : St :=
  let derivs := taylor_series γ a_0 init_con η_derivs use_E_r
  { St.zero with
    B_r := derivs.B_r
    B_φ := derivs.B_φ
    v_θ := derivs.v_φ }

end DiscSolver
