import Verif.Model.Deriv
import Verif.Model.Midplane

/-!
# The ODE system

`src/disc_solver/solve/solution.py:53-303` (`ode_system` and the
`rhs_equation` it returns): the derivative computation.  The stateful part
(recording of internal data) is in `Verif.Model.Rhs`.
-/

namespace DiscSolver

/-- `src/disc_solver/solve/utils.py:130-136` (`rad_to_scaled`, non-`None`
argument). -/
noncomputable def rad_to_scaled (obj θ_scale : ℝ) : ℝ := obj / θ_scale

/-- `src/disc_solver/solve/utils.py:139-145` (`scaled_to_rad`, non-`None`
argument). -/
noncomputable def scaled_to_rad (obj θ_scale : ℝ) : ℝ := obj * θ_scale

/-- Keyword arguments of `ode_system` (`solution.py:53-58`).  `v_θ_sonic_crit`
and `after_sonic` are accepted but not used by `rhs_equation`, and are left
out. -/
structure OdeArgs where
  γ : ℝ
  a_0 : ℝ
  norm_kepler_sq : ℝ
  init_con : St
  θ_scale : ℝ := 1
  with_taylor : Bool := false
  η_derivs : Bool := true
  use_E_r : Bool := false
  deriv_v_θ_func : Option (ℝ → ℝ) := none

/-- The unit vector of the field, `solution.py:146-147`. -/
noncomputable def B_mag (s : St) : ℝ :=
  Real.sqrt (s.B_r ^ 2 + s.B_φ ^ 2 + s.B_θ ^ 2)

/-- All values computed by one evaluation of `rhs_equation` that reach either
the derivative array or the internal data. -/
structure RhsValues where
  derivs : St
  v_r_normal : ℝ
  v_φ_normal : ℝ
  ρ_normal : ℝ
  v_r_taylor : ℝ
  v_φ_taylor : ℝ
  ρ_taylor : ℝ

/-- `solution.py:98-278`: the derivative computation of `rhs_equation` for an
accepted state at angle `θ` (already in radians). -/
noncomputable def rhsValues (P : OdeArgs) (θ : ℝ) (s : St) : RhsValues :=
  let taylor_derivs := taylor_series (γ := P.γ) (a_0 := P.a_0)
    (init_con := P.init_con) (η_derivs := P.η_derivs) (use_E_r := P.use_E_r)
  let dderiv_v_rM := taylor_derivs.v_r
  let dderiv_v_φM := taylor_derivs.v_φ
  let dderiv_ρ_M := taylor_derivs.ρ
  let norm_kepler := Real.sqrt P.norm_kepler_sq
  let η_O_0 := P.init_con.η_O
  let η_A_0 := P.init_con.η_A
  let η_H_0 := P.init_con.η_H
  let γ := P.γ
  let a_0 := P.a_0
  let B_r := s.B_r
  let B_φ := s.B_φ
  let B_θ := s.B_θ
  let v_r := s.v_r
  let v_φ := s.v_φ
  let v_θ := s.v_θ
  let ρ := s.ρ
  let η_O := s.η_O
  let η_A := s.η_A
  let η_H := s.η_H
  let b_r := B_r / B_mag s
  let b_φ := B_φ / B_mag s
  let b_θ := B_θ / B_mag s
  let C := C_func (η_O := η_O) (η_A := η_A) (η_H := η_H) (b_θ := b_θ)
    (b_r := b_r) (b_φ := b_φ)
  let Z_5 := Z_5_func (η_O := η_O) (η_A := η_A) (η_H := η_H) (b_r := b_r)
    (b_θ := b_θ) (b_φ := b_φ) (C := C)
  let deriv_B_φ :=
    if P.use_E_r then
      deriv_B_φ_func (θ := θ) (γ := γ) (B_r := B_r) (B_θ := B_θ) (B_φ := B_φ)
        (v_r := v_r) (v_φ := v_φ) (v_θ := v_θ) (η_O := η_O) (η_A := η_A)
        (η_H := η_H) (E_r := s.X) (b_θ := b_θ) (b_r := b_r) (b_φ := b_φ)
        (C := C) (Z_5 := Z_5)
    else s.X
  let deriv_B_r := deriv_B_r_func (B_r := B_r) (B_φ := B_φ) (B_θ := B_θ)
    (η_O := η_O) (η_H := η_H) (η_A := η_A) (θ := θ) (v_r := v_r) (v_θ := v_θ)
    (deriv_B_φ := deriv_B_φ) (γ := γ) (b_θ := b_θ) (b_r := b_r) (b_φ := b_φ)
  let deriv_B_θ := B_θ * Real.tan θ - (γ + 3/4) * B_r
  let deriv_v_r_taylor := θ * dderiv_v_rM
  let deriv_v_r_normal :=
    (v_r ^ 2 / 2 + v_θ ^ 2 + 5/2 - 2 * γ +
      (v_φ - norm_kepler) * (v_φ + norm_kepler) + a_0 / ρ * (
        B_θ * deriv_B_r + (1/4 - γ) * (B_θ ^ 2 + B_φ ^ 2)
      )) / v_θ
  let deriv_v_r := if P.with_taylor then deriv_v_r_taylor else deriv_v_r_normal
  let deriv_v_φ_taylor := θ * dderiv_v_φM
  let deriv_v_φ_normal :=
    (v_φ * v_θ * Real.tan θ - v_φ * v_r / 2 + a_0 / ρ * (
        B_θ * deriv_B_φ - (1/4 - γ) * B_r * B_φ -
        B_θ * B_φ * Real.tan θ
      )) / v_θ
  let deriv_v_φ := if P.with_taylor then deriv_v_φ_taylor else deriv_v_φ_normal
  let deriv_v_θ :=
    match P.deriv_v_θ_func with
    | some f => f θ
    | none =>
      (v_r / 2 * (v_θ ^ 2 - 4 * γ) + v_θ * (
          Real.tan θ * (v_φ ^ 2 + 1) + a_0 / ρ * (
            (1/4 - γ) * B_θ * B_r + B_r * deriv_B_r +
            B_φ * deriv_B_φ - B_φ ^ 2 * Real.tan θ
          )
        )) / ((1 - v_θ) * (1 + v_θ))
  let deriv_ρ_taylor := θ * dderiv_ρ_M
  let deriv_ρ_normal := - ρ * ((2 * γ * v_r + deriv_v_θ) / v_θ - Real.tan θ)
  let deriv_ρ := if P.with_taylor then deriv_ρ_taylor else deriv_ρ_normal
  let deriv_η_scale := deriv_η_skw_func (deriv_ρ := deriv_ρ)
    (deriv_B_θ := deriv_B_θ) (ρ := ρ) (B_r := B_r) (B_φ := B_φ) (B_θ := B_θ)
    (deriv_B_r := deriv_B_r) (deriv_B_φ := deriv_B_φ)
  let deriv_η_O := if P.η_derivs then deriv_η_scale * η_O_0 else 0
  let deriv_η_A := if P.η_derivs then deriv_η_scale * η_A_0 else 0
  let deriv_η_H := if P.η_derivs then deriv_η_scale * η_H_0 else 0
  let deriv_X :=
    if P.use_E_r then
      let J_r := J_r_func (θ := θ) (B_φ := B_φ) (deriv_B_φ := deriv_B_φ)
      let J_θ := J_θ_func (γ := γ) (B_φ := B_φ)
      let J_φ := J_φ_func (γ := γ) (B_θ := B_θ) (deriv_B_r := deriv_B_r)
      deriv_E_r_func (γ := γ) (v_r := v_r) (v_φ := v_φ) (B_r := B_r)
        (B_φ := B_φ) (η_O := η_O) (η_A := η_A) (η_H := η_H) (b_r := b_r)
        (b_θ := b_θ) (b_φ := b_φ) (J_r := J_r) (J_φ := J_φ) (J_θ := J_θ)
    else
      let u := B_unit_derivs (B_r := B_r) (B_φ := B_φ) (B_θ := B_θ)
        (deriv_B_r := deriv_B_r) (deriv_B_φ := deriv_B_φ)
        (deriv_B_θ := deriv_B_θ) (b_r := b_r) (b_θ := b_θ) (b_φ := b_φ)
      let deriv_b_r := u.1
      let deriv_b_φ := u.2.1
      let deriv_b_θ := u.2.2
      let A := A_func (η_O := η_O) (η_A := η_A) (η_H := η_H) (b_θ := b_θ)
        (b_r := b_r) (b_φ := b_φ) (deriv_η_O := deriv_η_O)
        (deriv_η_A := deriv_η_A) (deriv_η_H := deriv_η_H)
        (deriv_b_θ := deriv_b_θ) (deriv_b_r := deriv_b_r)
        (deriv_b_φ := deriv_b_φ)
      dderiv_B_φ_soln (B_r := B_r) (B_φ := B_φ) (B_θ := B_θ) (η_O := η_O)
        (η_H := η_H) (η_A := η_A) (θ := θ) (v_r := v_r) (v_θ := v_θ)
        (v_φ := v_φ) (deriv_v_r := deriv_v_r) (deriv_v_θ := deriv_v_θ)
        (deriv_v_φ := deriv_v_φ) (deriv_B_r := deriv_B_r)
        (deriv_B_θ := deriv_B_θ) (deriv_B_φ := deriv_B_φ) (γ := γ)
        (deriv_η_O := deriv_η_O) (deriv_η_A := deriv_η_A)
        (deriv_η_H := deriv_η_H) (b_r := b_r) (b_θ := b_θ) (b_φ := b_φ)
        (deriv_b_r := deriv_b_r) (deriv_b_θ := deriv_b_θ)
        (deriv_b_φ := deriv_b_φ) (C := C) (A := A)
  { derivs :=
      { B_r := deriv_B_r, B_φ := deriv_B_φ, B_θ := deriv_B_θ,
        v_r := deriv_v_r, v_φ := deriv_v_φ, v_θ := deriv_v_θ, ρ := deriv_ρ,
        X := deriv_X, η_O := deriv_η_O, η_A := deriv_η_A, η_H := deriv_η_H },
    v_r_normal := deriv_v_r_normal, v_φ_normal := deriv_v_φ_normal,
    ρ_normal := deriv_ρ_normal, v_r_taylor := deriv_v_r_taylor,
    v_φ_taylor := deriv_v_φ_taylor, ρ_taylor := deriv_ρ_taylor }

/-- The derivative array written by `rhs_equation` (`solution.py:264-278`). -/
noncomputable def rhsDerivs (P : OdeArgs) (θ : ℝ) (s : St) : St :=
  (rhsValues P θ s).derivs

/-- The result of one call of `rhs_equation` (`solution.py:93-302`) with
`derivs_post_solution=False`: the return code and the derivative array if it was
written.  `x` is the scaled angle. -/
noncomputable def rhs_equation (P : OdeArgs) (x : ℝ) (s : St) : ℤ × Option St :=
  let θ := scaled_to_rad x P.θ_scale
  if s.ρ < 0 then (1, none)
  else if s.v_θ < 0 then (-1, none)
  else (0, some (rhsDerivs P θ s))

end DiscSolver
