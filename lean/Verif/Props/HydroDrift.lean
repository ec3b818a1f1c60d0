import Verif.Props.ModHydro
import Verif.Props.Unit

/-!
# C59: how fast the hydrostatic solvers leave radial balance, for any diffusion
-/

namespace DiscSolver

open Spec
open Hydro (X_func X_dash_func)

/-! ### Quantities along a curve -/

/-- The derivative of the quantity the code divides by,
`η_O + η_A (1 - b_φ²)`. -/
theorem hasDerivAt_diffusion {η_O η_A b_φ : ℝ → ℝ} {dO dA dbφ θ : ℝ}
    (hO : HasDerivAt η_O dO θ) (hA : HasDerivAt η_A dA θ)
    (hφ : HasDerivAt b_φ dbφ θ) :
    HasDerivAt (fun t => η_O t + η_A t * (1 - b_φ t ^ 2))
      (dO + dA * (1 - b_φ θ ^ 2) - 2 * η_A θ * b_φ θ * dbφ) θ :=
  (hO.fun_add (hA.fun_mul ((hφ.fun_pow 2).const_sub 1))).congr_deriv (by
    push_cast
    ring)

/-- The coupling of the azimuthal field to the radial current. -/
noncomputable def coupling (η_A η_H b_r b_φ b_θ θ : ℝ) : ℝ :=
  η_A * b_φ * (b_r * Real.tan θ - b_θ / 4) + η_H * (b_r / 4 + b_θ * Real.tan θ)

theorem hasDerivAt_coupling {η_A η_H b_r b_φ b_θ : ℝ → ℝ} {dA dH dbr dbφ dbθ θ : ℝ}
    (hA : HasDerivAt η_A dA θ) (hH : HasDerivAt η_H dH θ)
    (hr : HasDerivAt b_r dbr θ) (hφ : HasDerivAt b_φ dbφ θ)
    (hθ : HasDerivAt b_θ dbθ θ) (hc : Real.cos θ ≠ 0) :
    HasDerivAt (fun t => coupling (η_A t) (η_H t) (b_r t) (b_φ t) (b_θ t) t)
      (dA * b_φ θ * (b_r θ * Real.tan θ - b_θ θ / 4) +
        η_A θ * dbφ * (b_r θ * Real.tan θ - b_θ θ / 4) +
        η_A θ * b_φ θ * (dbr * Real.tan θ + b_r θ * (Real.tan θ ^ 2 + 1) - dbθ / 4) +
        dH * (b_r θ / 4 + b_θ θ * Real.tan θ) +
        η_H θ * (dbr / 4 + dbθ * Real.tan θ + b_θ θ * (Real.tan θ ^ 2 + 1))) θ := by
  have ht : HasDerivAt Real.tan (Real.tan θ ^ 2 + 1) θ := by
    refine (Real.hasDerivAt_tan hc).congr_deriv ?_
    rw [Real.tan_eq_sin_div_cos]
    field_simp
    linear_combination -Real.sin_sq_add_cos_sq θ
  have D := ((hA.fun_mul hφ).fun_mul ((hr.fun_mul ht).fun_sub (hθ.div_const 4))).fun_add
    (hH.fun_mul ((hr.div_const 4).fun_add (hθ.fun_mul ht)))
  refine D.congr_deriv ?_
  ring

namespace ModHydro

/-- `Z_2` in terms of the diffusion `D`, the coupling `Q`, and their derivatives. -/
theorem Z_2_eq (θ a_0 X v_r B_φ B_θ ρ η_A η_O η_H b_φ b_r b_θ X_dash deriv_B_φ deriv_B_θ
    deriv_b_θ deriv_b_φ deriv_b_r deriv_η_O deriv_η_A deriv_η_H deriv_ρ n D Q dD dQ : ℝ)
    (hD : D = η_O + η_A * (1 - b_φ ^ 2))
    (hQ : Q = coupling η_A η_H b_r b_φ b_θ θ)
    (hdD : dD = deriv_η_O + deriv_η_A * (1 - b_φ ^ 2) - 2 * η_A * b_φ * deriv_b_φ)
    (hdQ : dQ = deriv_η_A * b_φ * (b_r * Real.tan θ - b_θ / 4) +
        η_A * deriv_b_φ * (b_r * Real.tan θ - b_θ / 4) +
        η_A * b_φ * (deriv_b_r * Real.tan θ + b_r * (Real.tan θ ^ 2 + 1) -
          deriv_b_θ / 4) +
        deriv_η_H * (b_r / 4 + b_θ * Real.tan θ) +
        η_H * (deriv_b_r / 4 + deriv_b_θ * Real.tan θ +
          b_θ * (Real.tan θ ^ 2 + 1))) :
    Z_2_func θ a_0 X v_r B_φ B_θ ρ η_A η_O η_H b_φ b_r b_θ X_dash deriv_B_φ deriv_B_θ
      deriv_b_θ deriv_b_φ deriv_b_r deriv_η_O deriv_η_A deriv_η_H deriv_ρ n =
    - a_0 / ρ * (deriv_B_φ * B_φ / 2 - deriv_B_θ * deriv_B_φ * X -
      B_θ * deriv_B_φ * X_dash - deriv_ρ / ρ * (
        B_φ ^ 2 / 4 - X * deriv_B_φ * B_θ - B_θ / D * (v_r * B_θ - B_φ * Q)) -
      B_θ / D * (v_r * deriv_B_θ - deriv_B_φ * Q - B_φ * dQ) -
      (deriv_B_θ / D - B_θ * dD / D ^ 2) * (v_r * B_θ - B_φ * Q)) / (2 * n) := by
  subst hD hQ hdD hdQ
  simp only [Z_2_func, coupling]
  ring

/-- C59. In the `B_φ'` formulation the exact rate at which a curve following the
right-hand side leaves the linearised radial balance, for any diffusion.  Three
slips of the code make it nonzero: the drag of the changing inflow is left out; the
derivative of the Hall and ambipolar drift `X` has a wrong sign; and `B_φ''` is not
weighted by `a_0 / ρ`. -/
theorem mod_hydro_radial_drift_general (P : Args) (f : ℝ → St) (θ : ℝ) (s' d : St)
    (hsc : P.θ_scale = 1) (hE : P.use_E_r = false)
    (h : rhs_equation P θ (f θ) = (0, s', some d)) (hd : HasStDeriv f d θ)
    (hv : ∀ t, (f t).v_θ = 0) (hρ : (f θ).ρ ≠ 0) (hK : 0 < P.norm_kepler_sq)
    (hc : Real.cos θ ≠ 0)
    (hB : (f θ).B_r ^ 2 + (f θ).B_φ ^ 2 + (f θ).B_θ ^ 2 ≠ 0)
    (b_r b_φ b_θ : ℝ → ℝ) (hr : b_r = fun t => (f t).B_r / B_mag (f t))
    (hφ : b_φ = fun t => (f t).B_φ / B_mag (f t))
    (hθ : b_θ = fun t => (f t).B_θ / B_mag (f t))
    (D : ℝ) (hD : D = (f θ).η_O + (f θ).η_A * (1 - b_φ θ ^ 2)) (hD0 : D ≠ 0)
    (dD : ℝ) (hdD : HasDerivAt
      (fun t => (f t).η_O + (f t).η_A * (1 - b_φ t ^ 2)) dD θ) :
    HasDerivAt (fun t => keplerRes P.a_0 P.norm_kepler_sq
        (flowOf t (f t) (derivsB P t (f t))))
      (P.a_0 * (f θ).B_θ ^ 2 / ((f θ).ρ * D) * d.v_r -
        P.a_0 / (f θ).ρ * (f θ).B_θ * (f θ).X *
          (2 * (f θ).η_A * b_r θ * b_φ θ * dD / D ^ 2) +
        (P.a_0 / (f θ).ρ - 1) * (f θ).B_θ * d.X *
          (((f θ).η_H * b_θ θ + (f θ).η_A * b_r θ * b_φ θ) / D)) θ := by
  have hd' : d = derivsB P θ (f θ) := by
    rcases accepted_cases h with ⟨hE', -⟩ | ⟨-, -, hd'⟩
    · rw [hE] at hE'; cases hE'
    · rw [hd', hsc, mul_one]
  have hn : Real.sqrt P.norm_kepler_sq ≠ 0 := (Real.sqrt_pos.2 hK).ne'
  have hBφ : d.B_φ = (f θ).X := by rw [hd']; rfl
  -- the derivatives of the direction
  obtain ⟨ur, uφ, uθ⟩ := B_unit_derivs_correct f θ d.B_r d.B_φ d.B_θ hd.B_r hd.B_φ
    hd.B_θ hB _ rfl
  generalize hu : B_unit_derivs (B_r := (f θ).B_r) (B_φ := (f θ).B_φ)
      (B_θ := (f θ).B_θ) (deriv_B_r := d.B_r) (deriv_B_φ := d.B_φ) (deriv_B_θ := d.B_θ)
      (b_r := (f θ).B_r / B_mag (f θ)) (b_φ := (f θ).B_φ / B_mag (f θ))
      (b_θ := (f θ).B_θ / B_mag (f θ)) = u at ur uφ uθ
  have hv' : d.v_φ =
      Z_2_func θ P.a_0 (X_func (f θ).η_O (f θ).η_A (f θ).η_H (b_θ θ) (b_r θ) (b_φ θ))
        (f θ).v_r (f θ).B_φ (f θ).B_θ (f θ).ρ (f θ).η_A (f θ).η_O (f θ).η_H (b_φ θ)
        (b_r θ) (b_θ θ)
        (X_dash_func (f θ).η_O (f θ).η_A (f θ).η_H (b_θ θ) (b_r θ) (b_φ θ)
          d.η_O d.η_A d.η_H u.2.2 u.1 u.2.1)
        (f θ).X d.B_θ u.2.2 u.2.1 u.1 d.η_O d.η_A d.η_H d.ρ
        (Real.sqrt P.norm_kepler_sq) - d.v_r * (f θ).v_r /
          (2 * Real.sqrt P.norm_kepler_sq) + d.X * (f θ).B_θ *
          X_func (f θ).η_O (f θ).η_A (f θ).η_H (b_θ θ) (b_r θ) (b_φ θ) /
          (2 * Real.sqrt P.norm_kepler_sq) := by
    rw [hr, hφ, hθ, ← hu, hBφ, hd']
    rfl
  rw [← hr] at ur
  rw [← hφ] at uφ
  rw [← hθ] at uθ
  have DD := hasDerivAt_diffusion hd.η_O hd.η_A uφ
  have eD := hdD.unique DD
  have DX := Hydro.X_dash_error _ _ _ b_θ b_r b_φ _ _ _ _ _ _ θ hd.η_O hd.η_A hd.η_H
    uθ ur uφ (hD ▸ hD0)
  have DQ := hasDerivAt_coupling hd.η_A hd.η_H ur uφ uθ hc
  rw [Z_2_eq θ _ _ _ _ _ _ _ _ _ _ _ _ _ _ _ _ _ _ _ _ _ _ _ D _ dD _ hD rfl eD rfl]
    at hv'
  -- the residual along the curve
  have e : (fun t => keplerRes P.a_0 P.norm_kepler_sq
      (flowOf t (f t) (derivsB P t (f t)))) = fun t =>
      (2 * P.norm_kepler_sq - 5/2) - (1/2 * (f t).v_r ^ 2 +
        2 * Real.sqrt P.norm_kepler_sq * (f t).v_φ +
        P.a_0 / (f t).ρ * ((f t).B_φ ^ 2 / 4 - X_func (f t).η_O (f t).η_A (f t).η_H
            (b_θ t) (b_r t) (b_φ t) * (f t).X * (f t).B_θ -
          (f t).B_θ / ((f t).η_O + (f t).η_A * (1 - b_φ t ^ 2)) * (
            (f t).v_r * (f t).B_θ - (f t).B_φ *
              coupling (f t).η_A (f t).η_H (b_r t) (b_φ t) (b_θ t) t))) := by
    funext t
    have hBr : (derivsB P t (f t)).B_r = Hydro.deriv_B_r_val (θ := t) (B_φ := (f t).B_φ)
        (B_θ := (f t).B_θ) (v_r := (f t).v_r) (deriv_B_φ := (f t).X) (η_O := (f t).η_O)
        (η_A := (f t).η_A) (η_H := (f t).η_H) (b_r := b_r t) (b_φ := b_φ t)
        (b_θ := b_θ t) := by
      rw [hr, hφ, hθ]; rfl
    have eD : (f t).η_O + (f t).η_A * (1 - b_φ t) * (1 + b_φ t) =
      (f t).η_O + (f t).η_A * (1 - b_φ t ^ 2) := by ring
    simp only [keplerRes, radialRes, flowOf, hv t, hBr, Hydro.deriv_B_r_val, eD, X_func,
      coupling]
    ring
  rw [e]
  have DR := (((((hd.v_r.fun_pow 2).const_mul (1/2)).fun_add
    (hd.v_φ.const_mul (2 * Real.sqrt P.norm_kepler_sq))).fun_add
    (((hasDerivAt_const θ P.a_0).fun_div hd.ρ hρ).fun_mul
      ((((hd.B_φ.fun_pow 2).div_const 4).fun_sub
        ((DX.fun_mul hd.X).fun_mul hd.B_θ)).fun_sub
        ((hd.B_θ.fun_div DD (hD ▸ hD0)).fun_mul
          ((hd.v_r.fun_mul hd.B_θ).fun_sub (hd.B_φ.fun_mul DQ)))))).const_sub
      (2 * P.norm_kepler_sq - 5/2))
  refine DR.congr_deriv ?_
  have hX : X_func (f θ).η_O (f θ).η_A (f θ).η_H (b_θ θ) (b_r θ) (b_φ θ) =
    ((f θ).η_H * b_θ θ + (f θ).η_A * b_r θ * b_φ θ) / D := by rw [hD]; rfl
  rw [← eD, ← hD, ← hX, hBφ, hv']
  generalize X_func (f θ).η_O (f θ).η_A (f θ).η_H (b_θ θ) (b_r θ) (b_φ θ) = X
  generalize X_dash_func (f θ).η_O (f θ).η_A (f θ).η_H (b_θ θ) (b_r θ) (b_φ θ)
          d.η_O d.η_A d.η_H u.2.2 u.1 u.2.1 = Xd
  generalize coupling (f θ).η_A (f θ).η_H (b_r θ) (b_φ θ) (b_θ θ) θ = Q
  generalize Real.sqrt P.norm_kepler_sq = n at *
  clear hv' DR e DQ DX DD eD hu ur uφ uθ hdD
  push_cast
  field_simp
  ring

end ModHydro

namespace Hydro

/-- `Z_2` in terms of the diffusion `D`, the coupling `Q`, and their derivatives;
`q` is what the code adds to the coupling by writing `b_θ / 4` for `- b_θ / 4`. -/
theorem Z_2_eq (θ a_0 X v_r B_φ B_θ B_r ρ η_A η_O η_H b_φ b_r b_θ X_dash deriv_B_r
    deriv_B_φ deriv_B_θ deriv_ρ b c deriv_b_θ deriv_b_φ deriv_b_r deriv_η_O deriv_η_A
    deriv_η_H D Q dD dQ q S : ℝ) (hc : Real.cos θ ≠ 0)
    (hD : D = η_O + η_A * (1 - b_φ ^ 2)) (hD0 : D ≠ 0)
    (hQ : Q = coupling η_A η_H b_r b_φ b_θ θ)
    (hdD : dD = deriv_η_O + deriv_η_A * (1 - b_φ ^ 2) - 2 * η_A * b_φ * deriv_b_φ)
    (hdQ : dQ = deriv_η_A * b_φ * (b_r * Real.tan θ - b_θ / 4) +
        η_A * deriv_b_φ * (b_r * Real.tan θ - b_θ / 4) +
        η_A * b_φ * (deriv_b_r * Real.tan θ + b_r * (Real.tan θ ^ 2 + 1) -
          deriv_b_θ / 4) +
        deriv_η_H * (b_r / 4 + b_θ * Real.tan θ) +
        η_H * (deriv_b_r / 4 + deriv_b_θ * Real.tan θ +
          b_θ * (Real.tan θ ^ 2 + 1)))
    (hq : q = η_A * b_φ * b_θ / 2)
    (hS : Real.sqrt (b ^ 2 - 4 * c) = S) :
    Z_2_func θ a_0 X v_r B_φ B_θ B_r ρ η_A η_O η_H b_φ b_r b_θ X_dash deriv_B_r
      deriv_B_φ deriv_B_θ deriv_ρ b c deriv_b_θ deriv_b_φ deriv_b_r deriv_η_O deriv_η_A
      deriv_η_H =
    v_r * X_dash / 4 + (v_r ^ 2 * X * X_dash / 16 + a_0 * deriv_ρ / ρ ^ 2 * (
        B_φ ^ 2 / 4 - X * B_φ * (B_r / 4 + B_θ * Real.tan θ) -
        B_θ / D * (v_r * B_θ - B_φ * (Q + q))) -
      a_0 / ρ * (deriv_B_φ * B_φ / 2 - (X_dash * B_φ + X * deriv_B_φ) * (
          B_r / 4 + B_θ * Real.tan θ) - X * B_φ * (
          deriv_B_r / 4 + deriv_B_θ * Real.tan θ + B_θ * (Real.tan θ ^ 2 + 1)) -
        (deriv_B_θ / D - B_θ * dD / D ^ 2) * (v_r * B_θ - B_φ * (Q + q)) -
        B_θ / D * (deriv_B_θ * v_r - deriv_B_φ * (Q + q - η_H * b_r / 2) - B_φ * dQ))) /
      S := by
  have hsec : sec θ ^ 2 = Real.tan θ ^ 2 + 1 := by
    rw [sec, Real.tan_eq_sin_div_cos]
    field_simp
    linear_combination -Real.sin_sq_add_cos_sq θ
  have e1 : (deriv_B_θ * D - B_θ * dD) / D ^ 2 = deriv_B_θ / D - B_θ * dD / D ^ 2 := by
    field_simp
  rw [← e1, ← hS]
  subst hD hQ hdD hdQ hq
  simp only [Z_2_func, coupling, hsec]
  ring

/-- C59. The exact rate at which a curve following the hydrostatic right-hand side
leaves radial balance, for any diffusion, from a state in radial and azimuthal
balance on the faster branch of the rotation speed.  The code counts the drag of the
inflow twice, has a wrong sign in the derivative of the Hall and ambipolar drift `X`,
halves the derivative of the square of `X v_r`, and has a wrong sign in the coupling
of the azimuthal field. -/
theorem hydro_radial_drift_general (P : Args) (f : ℝ → St) (θ : ℝ) (d : St)
    (hsc : P.θ_scale = 1) (hn : P.no_v_deriv = false)
    (h : rhs_equation P θ (f θ) = (0, some d)) (hd : HasStDeriv f d θ)
    (hv : ∀ t, (f t).v_θ = 0) (hρ : (f θ).ρ ≠ 0) (hφ : (f θ).v_φ ≠ 0)
    (hc : Real.cos θ ≠ 0) (hW : velDenom P θ (f θ) ≠ 0)
    (hB : (f θ).B_r ^ 2 + (f θ).B_φ ^ 2 + (f θ).B_θ ^ 2 ≠ 0)
    (hr : RadialMomentum (5/4) P.a_0 P.norm_kepler_sq (flowOf θ (f θ) d))
    (ha : AzimuthalMomentum (5/4) P.a_0 (flowOf θ (f θ) d))
    (b_r b_φ b_θ D X : ℝ → ℝ) (hbr : b_r = fun t => (f t).B_r / B_mag (f t))
    (hbφ : b_φ = fun t => (f t).B_φ / B_mag (f t))
    (hbθ : b_θ = fun t => (f t).B_θ / B_mag (f t))
    (hD : D = fun t => (f t).η_O + (f t).η_A * (1 - b_φ t ^ 2)) (hD0 : D θ ≠ 0)
    (hX : X = fun t => ((f t).η_H * b_θ t + (f t).η_A * b_r t * b_φ t) / D t)
    (dD dX dM : ℝ) (hdD : HasDerivAt D dD θ) (hdX : HasDerivAt X dX θ)
    (hdM : HasDerivAt
      (fun t => P.a_0 * (f t).B_θ * (f t).B_φ / ((f t).ρ * D t)) dM θ)
    (hbranch : 0 < 2 * (f θ).v_φ - X θ * (f θ).v_r / 2) :
    HasDerivAt (fun t => radialRes (5/4) P.a_0 P.norm_kepler_sq
        (flowOf t (f t) (rhsDerivs P t (f t))))
      (-(P.a_0 * (f θ).B_θ ^ 2 / ((f θ).ρ * D θ)) * d.v_r -
        2 * (f θ).η_A * b_r θ * b_φ θ * dD / D θ ^ 2 * (
          (f θ).v_r * (f θ).v_φ / 2 - X θ * (f θ).v_r ^ 2 / 16 +
          P.a_0 / (f θ).ρ * (f θ).B_φ *
            ((f θ).B_r / 4 + (f θ).B_θ * Real.tan θ)) +
        X θ * (f θ).v_r / 16 * (dX * (f θ).v_r + X θ * d.v_r) +
        (f θ).η_A * b_φ θ * b_θ θ / 2 * dM -
        P.a_0 * (f θ).B_θ * (f θ).X / ((f θ).ρ * D θ) * ((f θ).η_H * b_r θ / 2)) θ := by
  have hG := hydro_azimuthal_preserved P f θ d hsc hn h hd hv hρ hφ hc hW ha
  obtain ⟨-, -, -, hd'⟩ := accepted_iff h
  rw [hsc, mul_one] at hd'
  have hBφ : d.B_φ = (f θ).X := by rw [hd']; rfl
  obtain ⟨ur, uφ, uθ⟩ := B_unit_derivs_correct f θ d.B_r d.B_φ d.B_θ hd.B_r hd.B_φ
    hd.B_θ hB _ rfl
  generalize hu : B_unit_derivs (B_r := (f θ).B_r) (B_φ := (f θ).B_φ)
      (B_θ := (f θ).B_θ) (deriv_B_r := d.B_r) (deriv_B_φ := d.B_φ) (deriv_B_θ := d.B_θ)
      (b_r := (f θ).B_r / B_mag (f θ)) (b_φ := (f θ).B_φ / B_mag (f θ))
      (b_θ := (f θ).B_θ / B_mag (f θ)) = u at ur uφ uθ
  have hXt : ∀ t, X t = X_func (f t).η_O (f t).η_A (f t).η_H (b_θ t) (b_r t) (b_φ t) := by
    intro t; rw [hX, hD]; rfl
  have hv' : d.v_φ =
      Z_2_func θ P.a_0 (X θ) (f θ).v_r (f θ).B_φ (f θ).B_θ (f θ).B_r (f θ).ρ (f θ).η_A
        (f θ).η_O (f θ).η_H (b_φ θ) (b_r θ) (b_θ θ)
        (X_dash_func (f θ).η_O (f θ).η_A (f θ).η_H (b_θ θ) (b_r θ) (b_φ θ)
          d.η_O d.η_A d.η_H u.2.2 u.1 u.2.1)
        d.B_r (f θ).X d.B_θ d.ρ (b_func (X θ) (f θ).v_r)
        (c_func θ P.norm_kepler_sq P.a_0 (X θ) (f θ).v_r (f θ).B_φ (f θ).B_θ (f θ).B_r
          (f θ).ρ (f θ).η_A (f θ).η_O (f θ).η_H (b_φ θ) (b_r θ) (b_θ θ))
        u.2.2 u.2.1 u.1 d.η_O d.η_A d.η_H +
      d.v_r * Z_3_func (X θ) (f θ).v_r P.a_0 (f θ).B_θ (f θ).ρ (f θ).η_O (f θ).η_A
        (b_φ θ) (b_func (X θ) (f θ).v_r)
        (c_func θ P.norm_kepler_sq P.a_0 (X θ) (f θ).v_r (f θ).B_φ (f θ).B_θ (f θ).B_r
          (f θ).ρ (f θ).η_A (f θ).η_O (f θ).η_H (b_φ θ) (b_r θ) (b_θ θ)) := by
    rw [hXt, hbr, hbφ, hbθ, ← hu, hBφ, hd']
    simp only [rhsDerivs, hn, Bool.false_eq_true, if_false]
    rfl
  rw [← hbr] at ur
  rw [← hbφ] at uφ
  rw [← hbθ] at uθ
  have hDt : ∀ t, (f t).η_O + (f t).η_A * (1 - b_φ t ^ 2) = D t := by
    intro t; rw [hD]
  have DD := hasDerivAt_diffusion hd.η_O hd.η_A uφ
  rw [← hD] at DD
  have eD := hdD.unique DD
  have DX := X_dash_error _ _ _ b_θ b_r b_φ _ _ _ _ _ _ θ hd.η_O hd.η_A hd.η_H
    uθ ur uφ (by rw [hDt]; exact hD0)
  simp only [← hXt, hDt] at DX
  have eX := hdX.unique DX
  rw [← eD] at eX
  have DQ := hasDerivAt_coupling hd.η_A hd.η_H ur uφ uθ hc
  -- the residual along the curve
  have hBr : ∀ t, (rhsDerivs P t (f t)).B_r = -(X t * (f t).X) -
      ((f t).v_r * (f t).B_θ - (f t).B_φ *
        coupling (f t).η_A (f t).η_H (b_r t) (b_φ t) (b_θ t) t) / D t -
      (f t).B_θ / 4 := by
    intro t
    have h1 : (rhsDerivs P t (f t)).B_r = deriv_B_r_val (θ := t) (B_φ := (f t).B_φ)
        (B_θ := (f t).B_θ) (v_r := (f t).v_r) (deriv_B_φ := (f t).X) (η_O := (f t).η_O)
        (η_A := (f t).η_A) (η_H := (f t).η_H) (b_r := b_r t) (b_φ := b_φ t)
        (b_θ := b_θ t) := by
      rw [hbr, hbφ, hbθ]; rfl
    have e1 : (f t).η_O + (f t).η_A * (1 - b_φ t) * (1 + b_φ t) = D t := by
      rw [← hDt]; ring
    rw [h1, deriv_B_r_val, e1, hX, coupling]
    ring
  have e : (fun t => radialRes (5/4) P.a_0 P.norm_kepler_sq
      (flowOf t (f t) (rhsDerivs P t (f t)))) = fun t =>
      (P.norm_kepler_sq - 5/2) - (1/2 * (f t).v_r ^ 2 + (f t).v_φ ^ 2 -
        X t * (f t).v_r * (f t).v_φ / 2 +
        P.a_0 / (f t).ρ * ((f t).B_φ ^ 2 / 4 - X t * (f t).B_φ *
            ((f t).B_r / 4 + (f t).B_θ * Real.tan t) -
          (f t).B_θ / D t * (
            (f t).v_r * (f t).B_θ - (f t).B_φ *
              coupling (f t).η_A (f t).η_H (b_r t) (b_φ t) (b_θ t) t))) -
        X t * azimuthalRes (5/4) P.a_0 (flowOf t (f t) (rhsDerivs P t (f t))) := by
    funext t
    have : (rhsDerivs P t (f t)).B_φ = (f t).X := rfl
    simp only [radialRes, azimuthalRes, flowOf, hv t, hBr, this]
    ring
  -- the square root
  have hG0 : azimuthalRes (5/4) P.a_0 (flowOf θ (f θ) (rhsDerivs P θ (f θ))) = 0 := by
    rw [← hd']; exact ha
  have hR0 := congrFun e θ
  simp only [hG0] at hR0
  rw [← hd', show radialRes (5/4) P.a_0 P.norm_kepler_sq (flowOf θ (f θ) d) = 0 from hr]
    at hR0
  have hS : Real.sqrt (b_func (X θ) (f θ).v_r ^ 2 -
      4 * c_func θ P.norm_kepler_sq P.a_0 (X θ) (f θ).v_r (f θ).B_φ (f θ).B_θ (f θ).B_r
          (f θ).ρ (f θ).η_A (f θ).η_O (f θ).η_H (b_φ θ) (b_r θ) (b_θ θ)) =
      2 * (f θ).v_φ - X θ * (f θ).v_r / 2 := by
    rw [Real.sqrt_eq_iff_mul_self_eq_of_pos hbranch]
    rw [b_func, c_func, hDt]
    rw [coupling] at hR0
    linear_combination 4 * hR0
  rw [Z_2_eq θ _ _ _ _ _ _ _ _ _ _ _ _ _ _ _ _ _ _ _ _ _ _ _ _ _ _ (D θ) _ dD _ _ _ hc
    (hDt θ).symm hD0 rfl eD rfl rfl hS, Z_3_func, hS, hDt] at hv'
  have eM := hdM.unique (((hd.B_θ.const_mul P.a_0).fun_mul hd.B_φ).fun_div
    (hd.ρ.fun_mul hdD) (mul_ne_zero hρ hD0))
  have ht : HasDerivAt Real.tan (Real.tan θ ^ 2 + 1) θ := by
    refine (Real.hasDerivAt_tan hc).congr_deriv ?_
    rw [Real.tan_eq_sin_div_cos]
    field_simp
    linear_combination -Real.sin_sq_add_cos_sq θ
  rw [e]
  have DR := ((((((hd.v_r.fun_pow 2).const_mul (1/2)).fun_add
    (hd.v_φ.fun_pow 2)).fun_sub (((hdX.fun_mul hd.v_r).fun_mul hd.v_φ).div_const 2)).fun_add
    (((hasDerivAt_const θ P.a_0).fun_div hd.ρ hρ).fun_mul
      ((((hd.B_φ.fun_pow 2).div_const 4).fun_sub
        ((hdX.fun_mul hd.B_φ).fun_mul ((hd.B_r.div_const 4).fun_add
          (hd.B_θ.fun_mul ht)))).fun_sub
        ((hd.B_θ.fun_div hdD hD0).fun_mul
          ((hd.v_r.fun_mul hd.B_θ).fun_sub (hd.B_φ.fun_mul DQ)))))).const_sub
      (P.norm_kepler_sq - 5/2)).fun_sub (hdX.fun_mul hG)
  refine DR.congr_deriv ?_
  rw [hG0, hBφ]
  rw [hBφ] at eM
  generalize X_dash_func (f θ).η_O (f θ).η_A (f θ).η_H (b_θ θ) (b_r θ) (b_φ θ)
          d.η_O d.η_A d.η_H u.2.2 u.1 u.2.1 = Xd at *
  generalize coupling (f θ).η_A (f θ).η_H (b_r θ) (b_φ θ) (b_θ θ) θ = Q at *
  generalize hQ' : d.η_A * b_φ θ * (b_r θ * Real.tan θ - b_θ θ / 4) + _ + _ + _ + _ = dQ at *
  generalize hS' : 2 * (f θ).v_φ - X θ * (f θ).v_r / 2 = S at *
  have hS0 := hbranch.ne'
  have hXd : Xd = dX + 2 * (f θ).η_A * b_r θ * b_φ θ * dD / D θ ^ 2 := by rw [eX]; ring
  generalize 2 * (f θ).η_A * b_r θ * b_φ θ * dD / D θ ^ 2 = ε at *
  have hv2 : S * d.v_φ = S * ((f θ).v_r * Xd / 4 + d.v_r * X θ / 4) +
      ((f θ).v_r ^ 2 * X θ * Xd / 16 + P.a_0 * d.ρ / (f θ).ρ ^ 2 * (
        (f θ).B_φ ^ 2 / 4 - X θ * (f θ).B_φ * ((f θ).B_r / 4 + (f θ).B_θ * Real.tan θ) -
        (f θ).B_θ / D θ * ((f θ).v_r * (f θ).B_θ - (f θ).B_φ *
          (Q + (f θ).η_A * b_φ θ * b_θ θ / 2))) -
      P.a_0 / (f θ).ρ * ((f θ).X * (f θ).B_φ / 2 -
        (Xd * (f θ).B_φ + X θ * (f θ).X) * (
          (f θ).B_r / 4 + (f θ).B_θ * Real.tan θ) - X θ * (f θ).B_φ * (
          d.B_r / 4 + d.B_θ * Real.tan θ + (f θ).B_θ * (Real.tan θ ^ 2 + 1)) -
        (d.B_θ / D θ - (f θ).B_θ * dD / D θ ^ 2) * ((f θ).v_r * (f θ).B_θ - (f θ).B_φ *
          (Q + (f θ).η_A * b_φ θ * b_θ θ / 2)) -
        (f θ).B_θ / D θ * (d.B_θ * (f θ).v_r - (f θ).X *
          (Q + (f θ).η_A * b_φ θ * b_θ θ / 2 - (f θ).η_H * b_r θ / 2) -
          (f θ).B_φ * dQ))) +
      d.v_r * ((f θ).v_r * (X θ ^ 2 / 16 - 1) +
        2 * P.a_0 * (f θ).B_θ ^ 2 / ((f θ).ρ * D θ)) := by
    rw [hv']
    field_simp
    ring
  clear hv' DR e hR0 hS DQ DX DD eD eX hBr
  subst hXd eM
  rw [← hS'] at hv2
  clear hS' hS0 hbranch hG hG0 hdX hdM hdD hbr hbφ hbθ hu ur uφ uθ hQ' hXt hDt hX hD
  push_cast
  linear_combination (norm := (field_simp; ring)) (-1) * hv2

/-! ### A concrete state with all three kinds of diffusion -/

/-- In radial and azimuthal balance, for `witDP`. -/
noncomputable def witD : St :=
  { B_r := 0, B_φ := 3, B_θ := 4, v_r := -1, v_φ := 2, v_θ := 0, ρ := 1,
    X := -1/4, η_O := 1, η_A := 1, η_H := 1 }

/-- Parameters for `witD`. -/
noncomputable def witDP : Args :=
  { a_0 := 1, norm_kepler_sq := 3053/164, init_con := witD, no_v_deriv := false }

theorem witD_mag : B_mag witD = 5 := by
  rw [B_mag, show witD.B_r ^ 2 + witD.B_φ ^ 2 + witD.B_θ ^ 2 = (5:ℝ) ^ 2 by
    norm_num [witD], Real.sqrt_sq (by norm_num)]

theorem witD_disc : discriminant witDP 0 witD = (174/41) ^ 2 := by
  simp only [discriminant, witD_mag]
  norm_num [witDP, witD, c_func, b_func, X_func]

theorem witD_accepted :
    rhs_equation witDP 0 witD = (0, some (rhsDerivs witDP 0 witD)) := by
  simp only [rhs_equation, scaled_to_rad, zero_mul, witD_disc]
  norm_num [witD]

theorem witD_B_r : (rhsDerivs witDP 0 witD).B_r = 55/41 := by
  simp only [rhsDerivs, witD_mag]
  norm_num [witD, deriv_B_r_val]

theorem witD_radial : RadialMomentum (5/4) witDP.a_0 witDP.norm_kepler_sq
    (flowOf 0 witD (rhsDerivs witDP 0 witD)) := by
  simp only [RadialMomentum, radialRes, flowOf, witD_B_r]
  norm_num [witD, witDP]

theorem witD_azimuthal : AzimuthalMomentum (5/4) witDP.a_0
    (flowOf 0 witD (rhsDerivs witDP 0 witD)) := by
  have : (rhsDerivs witDP 0 witD).B_φ = witD.X := rfl
  simp only [AzimuthalMomentum, azimuthalRes, flowOf, this]
  norm_num [witD, witDP]

theorem witD_denom : velDenom witDP 0 witD ≠ 0 := by
  have h := witD_disc
  simp only [discriminant, witD_mag] at h
  simp only [velDenom, witD_mag, Z_3_func, h]
  rw [Real.sqrt_sq (by norm_num)]
  norm_num [witDP, witD, X_func, Z_4_func]

/-- The straight curve through `witD` along its derivatives. -/
noncomputable def witDCurve : ℝ → St := line witD (rhsDerivs witDP 0 witD) 0

theorem witDCurve_zero : witDCurve 0 = witD := line_at _ _ _

theorem witDCurve_static (t : ℝ) : (witDCurve t).v_θ = 0 := by
  have : (rhsDerivs witDP 0 witD).v_θ = 0 := rfl
  simp [witDCurve, line, St.add, St.smul, this]
  rfl

/-- The witness meets all hypotheses, so the drift formula applies to it. -/
theorem witD_drifts : ∃ r, HasDerivAt (fun t => radialRes (5/4) witDP.a_0
    witDP.norm_kepler_sq (flowOf t (witDCurve t) (rhsDerivs witDP t (witDCurve t)))) r 0 := by
  have hd : HasStDeriv witDCurve (rhsDerivs witDP 0 witD) 0 := hasStDeriv_line _ _ _
  have hB : (witDCurve 0).B_r ^ 2 + (witDCurve 0).B_φ ^ 2 + (witDCurve 0).B_θ ^ 2 ≠ 0 := by
    rw [witDCurve_zero]; norm_num [witD]
  obtain ⟨ur, uφ, uθ⟩ := B_unit_derivs_correct witDCurve 0 _ _ _ hd.B_r hd.B_φ
    hd.B_θ hB _ rfl
  have hD0 : (witDCurve 0).η_O + (witDCurve 0).η_A *
      (1 - ((witDCurve 0).B_φ / B_mag (witDCurve 0)) ^ 2) ≠ 0 := by
    rw [witDCurve_zero, witD_mag]; norm_num [witD]
  have DD := hasDerivAt_diffusion hd.η_O hd.η_A uφ
  exact ⟨_, hydro_radial_drift_general witDP witDCurve 0 (rhsDerivs witDP 0 witD) rfl rfl
    (by rw [witDCurve_zero]; exact witD_accepted) hd witDCurve_static
    (by rw [witDCurve_zero]; norm_num [witD]) (by rw [witDCurve_zero]; norm_num [witD])
    (by simp) (by rw [witDCurve_zero]; exact witD_denom) hB
    (by rw [witDCurve_zero]; exact witD_radial)
    (by rw [witDCurve_zero]; exact witD_azimuthal) _ _ _ _ _ rfl rfl rfl rfl hD0 rfl
    _ _ _ DD
    (X_dash_error _ _ _ _ _ _ _ _ _ _ _ _ 0 hd.η_O hd.η_A hd.η_H uθ ur uφ hD0)
    (((hd.B_θ.const_mul witDP.a_0).fun_mul hd.B_φ).fun_div (hd.ρ.fun_mul DD)
      (mul_ne_zero (by rw [witDCurve_zero]; norm_num [witD]) hD0))
    (by simp only [witDCurve_zero, witD_mag]; norm_num [witD])⟩

end Hydro

namespace ModHydro

/-- Parameters for `Hydro.witD` in the modified solver. -/
noncomputable def witDP : Args :=
  { a_0 := 1, norm_kepler_sq := 100, init_con := Hydro.witD, tracker := fun _ => -1 }

/-- The straight curve through `Hydro.witD` along its derivatives. -/
noncomputable def witDCurve : ℝ → St := line Hydro.witD (derivsB witDP 0 Hydro.witD) 0

theorem witDCurve_zero : witDCurve 0 = Hydro.witD := line_at _ _ _

theorem witDCurve_static (t : ℝ) : (witDCurve t).v_θ = 0 := by
  have : (derivsB witDP 0 Hydro.witD).v_θ = 0 := rfl
  simp [witDCurve, line, St.add, St.smul, this]
  rfl

theorem witD_drifts : ∃ r, HasDerivAt (fun t => keplerRes witDP.a_0
    witDP.norm_kepler_sq (flowOf t (witDCurve t) (derivsB witDP t (witDCurve t)))) r 0 := by
  have hd : HasStDeriv witDCurve (derivsB witDP 0 Hydro.witD) 0 := hasStDeriv_line _ _ _
  have hB : (witDCurve 0).B_r ^ 2 + (witDCurve 0).B_φ ^ 2 + (witDCurve 0).B_θ ^ 2 ≠ 0 := by
    rw [witDCurve_zero]; norm_num [Hydro.witD]
  obtain ⟨-, uφ, -⟩ := B_unit_derivs_correct witDCurve 0 _ _ _ hd.B_r hd.B_φ
    hd.B_θ hB _ rfl
  exact ⟨_, mod_hydro_radial_drift_general witDP witDCurve 0 Hydro.witD
    (derivsB witDP 0 Hydro.witD) rfl rfl
    (by rw [witDCurve_zero]; norm_num [rhs_equation, Hydro.witD, witDP, scaled_to_rad])
    hd witDCurve_static (by rw [witDCurve_zero]; norm_num [Hydro.witD])
    (by norm_num [witDP]) (by simp) hB _ _ _ rfl rfl rfl _ rfl
    (by rw [witDCurve_zero, Hydro.witD_mag]; norm_num [Hydro.witD]) _
    (hasDerivAt_diffusion hd.η_O hd.η_A uφ)⟩

end ModHydro

end DiscSolver
