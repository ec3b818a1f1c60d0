import Mathlib.Tactic.FieldSimp
import Mathlib.Tactic.LinearCombination
import Verif.Lemmas.Witness
import Verif.Props.OdeResiduals
import Verif.Model.Hydro

/-!
# C59: the hydrostatic solver

The equations are the same as for the full solver (`Verif.Spec.Residuals`) at
`β = 5/4`, with no vertical flow.
-/

namespace DiscSolver.Hydro

open Spec

/-- The wind-free state the hydrostatic solver works with: no vertical flow,
some density, some field, and a diffusivity perpendicular to the field. -/
structure Static (s : St) : Prop where
  v_θ : s.v_θ = 0
  ρ : s.ρ ≠ 0
  η : s.η_O + s.η_A * (1 - (s.B_φ / B_mag s) ^ 2) ≠ 0

/-- C59. A call is accepted exactly when the density is not negative and the
balance of forces has a real rotation speed; otherwise it returns the
recoverable error code 1 and writes nothing. -/
theorem hydro_outcomes (P : Args) (x : ℝ) (s : St) :
    (rhs_equation P x s = (1, none) ∨ ∃ d, rhs_equation P x s = (0, some d)) ∧
    ((∃ d, rhs_equation P x s = (0, some d)) ↔
      0 ≤ s.ρ ∧ 0 ≤ discriminant P (x * P.θ_scale) s) := by
  unfold rhs_equation scaled_to_rad
  by_cases h1 : s.ρ < 0
  · simp [h1, not_le.2 h1]
  · by_cases h2 : discriminant P (x * P.θ_scale) s < 0
    · simp [h1, h2, not_le.2 h2]
    · simp [h1, h2, not_lt.1 h1, not_lt.1 h2]

theorem accepted_iff {P : Args} {x : ℝ} {s d : St} {code : ℤ}
    (h : rhs_equation P x s = (code, some d)) :
    code = 0 ∧ 0 ≤ s.ρ ∧ 0 ≤ discriminant P (x * P.θ_scale) s ∧
      d = rhsDerivs P (x * P.θ_scale) s := by
  unfold rhs_equation scaled_to_rad at h
  by_cases h1 : s.ρ < 0
  · simp [h1] at h
  · by_cases h2 : discriminant P (x * P.θ_scale) s < 0
    · simp [h1, h2] at h
    · simp only [h1, h2, if_false, Prod.mk.injEq, Option.some.injEq] at h
      exact ⟨h.1.symm, not_lt.1 h1, not_lt.1 h2, h.2.symm⟩

/-- C59. Every accepted call on a static state returns derivatives that conserve
mass, keep the field divergence free, balance the vertical forces and satisfy
the poloidal induction equation; the vertical velocity stays zero. -/
theorem hydro_statics (P : Args) (x : ℝ) (s d : St) (code : ℤ)
    (h : rhs_equation P x s = (code, some d)) (hs : Static s) :
    Continuity (5/4) (flowOf (x * P.θ_scale) s d) ∧
    Solenoid (5/4) (flowOf (x * P.θ_scale) s d) ∧
    PolarMomentum (5/4) P.a_0 (flowOf (x * P.θ_scale) s d) ∧
    PolarInduction (5/4) (s.B_r / B_mag s) (s.B_φ / B_mag s)
      (s.B_θ / B_mag s) (flowOf (x * P.θ_scale) s d) ∧
    d.v_θ = 0 := by
  obtain ⟨-, -, -, rfl⟩ := accepted_iff h
  obtain ⟨hv, hρ, hη⟩ := hs
  refine ⟨?_, ?_, ?_, ?_, rfl⟩
  · simp only [Continuity, continuityRes, flowOf, rhsDerivs, hv]
    ring
  · simp only [Solenoid, solenoidRes, flowOf, rhsDerivs]
    ring
  · simp only [PolarMomentum, polarRes, flowOf, rhsDerivs, hv, deriv_ρ_val]
    generalize deriv_B_r_val _ _ _ _ _ _ _ _ _ _ _ = dBr
    field_simp
    ring
  · simp only [PolarInduction, polarInductionRes, flowOf, rhsDerivs, hv,
      deriv_B_r_val]
    generalize s.B_φ / B_mag s = bφ at *
    generalize s.B_r / B_mag s = br at *
    generalize s.B_θ / B_mag s = bθ at *
    have e : s.η_O + s.η_A * (1 - bφ) * (1 + bφ) =
        s.η_O + s.η_A * (1 - bφ ^ 2) := by ring
    rw [e]
    field_simp
    ring

/-- C59. If the velocities are held fixed (`no_v_deriv`), no velocity
changes. -/
theorem hydro_frozen_velocities (P : Args) (x : ℝ) (s d : St) (code : ℤ)
    (h : rhs_equation P x s = (code, some d)) (hn : P.no_v_deriv = true) :
    d.v_r = 0 ∧ d.v_φ = 0 ∧ d.v_θ = 0 := by
  obtain ⟨-, -, -, rfl⟩ := accepted_iff h
  simp [rhsDerivs, hn]

/-- C59. A state in radial and azimuthal balance (for the radial field gradient
which the poloidal induction equation demands) is never rejected. -/
theorem hydro_balanced_accepted (P : Args) (x : ℝ) (s g : St) (hs : Static s)
    (hρ : 0 ≤ s.ρ) (hg : g.B_φ = s.X)
    (hi : PolarInduction (5/4) (s.B_r / B_mag s) (s.B_φ / B_mag s)
      (s.B_θ / B_mag s) (flowOf (x * P.θ_scale) s g))
    (hr : RadialMomentum (5/4) P.a_0 P.norm_kepler_sq
      (flowOf (x * P.θ_scale) s g))
    (hφ : AzimuthalMomentum (5/4) P.a_0 (flowOf (x * P.θ_scale) s g)) :
    ∃ d, rhs_equation P x s = (0, some d) := by
  rw [(hydro_outcomes P x s).2]
  refine ⟨hρ, ?_⟩
  obtain ⟨hv, hρ', hη⟩ := hs
  simp only [PolarInduction, polarInductionRes, RadialMomentum, radialRes,
    AzimuthalMomentum, azimuthalRes, flowOf, hv, hg] at hi hr hφ
  simp only [discriminant, c_func, b_func, X_func]
  generalize s.B_φ / B_mag s = bφ at *
  generalize s.B_r / B_mag s = br at *
  generalize s.B_θ / B_mag s = bθ at *
  generalize Real.tan (x * P.θ_scale) = t at *
  have key : ((2 * s.v_φ - (s.η_H * bθ + s.η_A * br * bφ) /
      (s.η_O + s.η_A * (1 - bφ ^ 2)) * s.v_r / 2) ^ 2) =
      (-((s.η_H * bθ + s.η_A * br * bφ) / (s.η_O + s.η_A * (1 - bφ ^ 2))) *
          s.v_r / 2) ^ 2 -
        4 * (s.v_r ^ 2 / 2 + 5 / 2 - P.norm_kepler_sq + P.a_0 / s.ρ * (
          s.B_φ ^ 2 / 4 - (s.η_H * bθ + s.η_A * br * bφ) /
            (s.η_O + s.η_A * (1 - bφ ^ 2)) * s.B_φ * (
            1 / 4 * s.B_r + s.B_θ * t) -
          s.B_θ / (s.η_O + s.η_A * (1 - bφ ^ 2)) * (
            s.v_r * s.B_θ - s.B_φ * (
              s.η_A * bφ * (br * t - bθ / 4) + s.η_H * (br / 4 + bθ * t))))) := by
    generalize hD : s.η_O + s.η_A * (1 - bφ ^ 2) = D at *
    have hr1 : D * D⁻¹ = 1 := mul_inv_cancel₀ hη
    simp only [div_eq_mul_inv] at hr hφ hi ⊢
    generalize D⁻¹ = r at *
    linear_combination (-4) * hr - 4 * (s.η_H * bθ + s.η_A * br * bφ) * r * hφ +
      4 * P.a_0 * s.ρ⁻¹ * s.B_θ * r * hi +
      4 * P.a_0 * s.ρ⁻¹ * s.B_θ * (g.B_r + s.B_θ / 4) * hr1
  rw [← key]
  positivity

/-- The denominator the code divides by to get the radial acceleration
(`hydrostatic.py:346-348`). -/
noncomputable def velDenom (P : Args) (θ : ℝ) (s : St) : ℝ :=
  let b_r := s.B_r / B_mag s
  let b_φ := s.B_φ / B_mag s
  let b_θ := s.B_θ / B_mag s
  let X := X_func s.η_O s.η_A s.η_H b_θ b_r b_φ
  let c := c_func θ P.norm_kepler_sq P.a_0 X s.v_r s.B_φ s.B_θ s.B_r s.ρ s.η_A
    s.η_O s.η_H b_φ b_r b_θ
  s.v_φ ^ 2 * s.ρ + 2 * P.a_0 *
    Z_3_func X s.v_r P.a_0 s.B_θ s.ρ s.η_O s.η_A b_φ (b_func X s.v_r) c *
    Z_4_func s.B_θ s.B_r s.B_φ s.X θ

theorem velocity_derivs (P : Args) (θ : ℝ) (s : St) (hn : P.no_v_deriv = false) :
    ∃ Z_2 Z_3 : ℝ,
      velDenom P θ s = s.v_φ ^ 2 * s.ρ + 2 * P.a_0 * Z_3 *
        Z_4_func s.B_θ s.B_r s.B_φ s.X θ ∧
      (rhsDerivs P θ s).v_φ = Z_2 + (rhsDerivs P θ s).v_r * Z_3 ∧
      (rhsDerivs P θ s).v_r = (Z_1_func θ P.a_0 s.B_φ s.B_θ s.B_r s.ρ
          (rhsDerivs P θ s).B_r s.X (rhsDerivs P θ s).B_θ s.v_φ
          (rhsDerivs P θ s).ρ * s.v_φ ^ 2 * s.ρ + 2 * P.a_0 * (
            s.v_φ * s.B_θ * (rhsDerivs P θ s).X -
            Z_2 * Z_4_func s.B_θ s.B_r s.B_φ s.X θ)) / velDenom P θ s := by
  let b_r := s.B_r / B_mag s
  let b_φ := s.B_φ / B_mag s
  let b_θ := s.B_θ / B_mag s
  let X := X_func s.η_O s.η_A s.η_H b_θ b_r b_φ
  let c := c_func θ P.norm_kepler_sq P.a_0 X s.v_r s.B_φ s.B_θ s.B_r s.ρ s.η_A
    s.η_O s.η_H b_φ b_r b_θ
  have hZ : ∃ Z_2, (rhsDerivs P θ s).v_φ = Z_2 + (rhsDerivs P θ s).v_r *
      Z_3_func X s.v_r P.a_0 s.B_θ s.ρ s.η_O s.η_A b_φ (b_func X s.v_r) c ∧
      (rhsDerivs P θ s).v_r = (Z_1_func θ P.a_0 s.B_φ s.B_θ s.B_r s.ρ
          (rhsDerivs P θ s).B_r s.X (rhsDerivs P θ s).B_θ s.v_φ
          (rhsDerivs P θ s).ρ * s.v_φ ^ 2 * s.ρ + 2 * P.a_0 * (
            s.v_φ * s.B_θ * (rhsDerivs P θ s).X -
            Z_2 * Z_4_func s.B_θ s.B_r s.B_φ s.X θ)) / velDenom P θ s := by
    simp only [rhsDerivs, hn, Bool.false_eq_true, if_false]
    exact ⟨_, rfl, rfl⟩
  obtain ⟨Z_2, hA, hB⟩ := hZ
  exact ⟨Z_2, _, rfl, hA, hB⟩

theorem v_φ_deriv (P : Args) (θ : ℝ) (s : St) (hn : P.no_v_deriv = false)
    (b_r b_φ b_θ X c : ℝ) (h1 : b_r = s.B_r / B_mag s)
    (h2 : b_φ = s.B_φ / B_mag s) (h3 : b_θ = s.B_θ / B_mag s)
    (h4 : X = X_func s.η_O s.η_A s.η_H b_θ b_r b_φ)
    (h5 : c = c_func θ P.norm_kepler_sq P.a_0 X s.v_r s.B_φ s.B_θ s.B_r s.ρ
      s.η_A s.η_O s.η_H b_φ b_r b_θ) :
    ∃ db_θ db_φ db_r, (rhsDerivs P θ s).v_φ =
      Z_2_func θ P.a_0 X s.v_r s.B_φ s.B_θ s.B_r s.ρ s.η_A s.η_O s.η_H b_φ b_r b_θ
        (X_dash_func s.η_O s.η_A s.η_H b_θ b_r b_φ (rhsDerivs P θ s).η_O
          (rhsDerivs P θ s).η_A (rhsDerivs P θ s).η_H db_θ db_r db_φ)
        (rhsDerivs P θ s).B_r s.X (rhsDerivs P θ s).B_θ (rhsDerivs P θ s).ρ
        (b_func X s.v_r) c db_θ db_φ db_r (rhsDerivs P θ s).η_O
        (rhsDerivs P θ s).η_A (rhsDerivs P θ s).η_H +
      (rhsDerivs P θ s).v_r *
        Z_3_func X s.v_r P.a_0 s.B_θ s.ρ s.η_O s.η_A b_φ (b_func X s.v_r) c := by
  subst h1 h2 h3 h4 h5
  simp only [rhsDerivs, hn, Bool.false_eq_true, if_false]
  exact ⟨_, _, _, rfl⟩

theorem hasDerivAt_tan' {θ : ℝ} (h : Real.cos θ ≠ 0) :
    HasDerivAt Real.tan (sec θ ^ 2) θ := by
  have := Real.hasDerivAt_tan h
  simpa [sec] using this

/-- C59. Along a curve that follows the hydrostatic right-hand side with its
velocity derivatives, a state in azimuthal balance stays in azimuthal balance:
the residual of the azimuthal momentum equation has derivative zero. -/
theorem hydro_azimuthal_preserved (P : Args) (f : ℝ → St) (θ : ℝ) (d : St)
    (hsc : P.θ_scale = 1) (hn : P.no_v_deriv = false)
    (h : rhs_equation P θ (f θ) = (0, some d)) (hd : HasStDeriv f d θ)
    (hv : ∀ t, (f t).v_θ = 0) (hρ : (f θ).ρ ≠ 0) (hφ : (f θ).v_φ ≠ 0)
    (hc : Real.cos θ ≠ 0) (hW : velDenom P θ (f θ) ≠ 0)
    (hb : AzimuthalMomentum (5/4) P.a_0 (flowOf θ (f θ) d)) :
    HasDerivAt (fun t => azimuthalRes (5/4) P.a_0
      (flowOf t (f t) (rhsDerivs P t (f t)))) 0 θ := by
  obtain ⟨-, -, -, hd'⟩ := accepted_iff h
  rw [hsc, mul_one] at hd'
  obtain ⟨Z_2, Z_3, hW', h1, h2⟩ := velocity_derivs P θ (f θ) hn
  rw [← hd'] at h1 h2
  have hBφ : d.B_φ = (f θ).X := by rw [hd']; rfl
  have e : (fun t => azimuthalRes (5/4) P.a_0
      (flowOf t (f t) (rhsDerivs P t (f t)))) = fun t =>
      1/2 * (f t).v_r * (f t).v_φ - P.a_0 / (f t).ρ * (
        (f t).B_θ * (f t).X - 1/4 * (f t).B_r * (f t).B_φ -
        Real.tan t * (f t).B_θ * (f t).B_φ) := by
    funext t
    have : (rhsDerivs P t (f t)).B_φ = (f t).X := rfl
    simp only [azimuthalRes, flowOf, hv t, this]
    ring
  rw [e]
  have D := (((hd.v_r.fun_mul hd.v_φ).const_mul (1/2)).fun_sub
    (((hasDerivAt_const θ P.a_0).fun_div hd.ρ hρ).fun_mul
      (((hd.B_θ.fun_mul hd.X).fun_sub
        ((hd.B_r.fun_mul hd.B_φ).const_mul (1/4))).fun_sub
        ((hasDerivAt_tan' hc).fun_mul (hd.B_θ.fun_mul hd.B_φ)))))
  have D' := D.congr_of_eventuallyEq (f₁ := fun t =>
      1/2 * (f t).v_r * (f t).v_φ - P.a_0 / (f t).ρ * (
        (f t).B_θ * (f t).X - 1/4 * (f t).B_r * (f t).B_φ -
        Real.tan t * (f t).B_θ * (f t).B_φ))
    (Filter.Eventually.of_forall fun t => by simp only; ring)
  refine D'.congr_deriv ?_
  simp only [AzimuthalMomentum, azimuthalRes, flowOf, hv θ, hBφ] at hb
  simp only [hBφ]
  rw [hW'] at h2 hW
  rw [eq_div_iff hW] at h2
  simp only [Z_1_func, Z_4_func] at h2 hW
  generalize f θ = s at *
  generalize sec θ = c at *
  generalize Real.tan θ = t at *
  have h3 : s.v_φ * (d.v_r * s.v_φ * s.ρ) + 2 * P.a_0 * d.v_φ * (
      s.B_θ * s.X - s.B_r * s.B_φ / 4 - s.B_θ * s.B_φ * t) =
      2 * P.a_0 * s.v_φ * (d.B_θ * (s.X - s.B_φ * t) -
        (d.B_r * s.B_φ + s.B_r * s.X) / 4 - s.B_θ * s.X * t -
        s.B_θ * s.B_φ * c ^ 2 - d.ρ / s.ρ * (
          s.B_θ * s.X - s.B_r * s.B_φ / 4 - s.B_θ * s.B_φ * t) +
        s.B_θ * d.X) := by
    rw [h1]
    field_simp at h2 ⊢
    linear_combination h2
  have hb' : 2 * P.a_0 * (s.B_θ * s.X - s.B_r * s.B_φ / 4 - s.B_θ * s.B_φ * t)
      = s.ρ * s.v_r * s.v_φ := by
    field_simp at hb
    linear_combination (-1/4) * hb
  have h4 : d.v_r * s.v_φ * s.ρ + s.ρ * s.v_r * d.v_φ =
      2 * P.a_0 * (d.B_θ * (s.X - s.B_φ * t) -
        (d.B_r * s.B_φ + s.B_r * s.X) / 4 - s.B_θ * s.X * t -
        s.B_θ * s.B_φ * c ^ 2 - d.ρ / s.ρ * (
          s.B_θ * s.X - s.B_r * s.B_φ / 4 - s.B_θ * s.B_φ * t) +
        s.B_θ * d.X) := by
    apply mul_left_cancel₀ hφ
    linear_combination h3 - d.v_φ * hb'
  field_simp at h4 ⊢
  linear_combination h4

/-- C59. `X_dash_func` is not the derivative of `X_func`: the code subtracts
where the derivative of a sum adds, so the true derivative differs from the
code's by the term below, which vanishes without ambipolar diffusion. -/
theorem X_dash_error (η_O η_A η_H b_θ b_r b_φ : ℝ → ℝ)
    (dO dA dH dbθ dbr dbφ θ : ℝ)
    (hO : HasDerivAt η_O dO θ) (hA : HasDerivAt η_A dA θ)
    (hH : HasDerivAt η_H dH θ) (hθ : HasDerivAt b_θ dbθ θ)
    (hr : HasDerivAt b_r dbr θ) (hφ : HasDerivAt b_φ dbφ θ)
    (hD : η_O θ + η_A θ * (1 - b_φ θ ^ 2) ≠ 0) :
    HasDerivAt
      (fun t => X_func (η_O t) (η_A t) (η_H t) (b_θ t) (b_r t) (b_φ t))
      (X_dash_func (η_O θ) (η_A θ) (η_H θ) (b_θ θ) (b_r θ) (b_φ θ)
          dO dA dH dbθ dbr dbφ -
        2 * η_A θ * b_r θ * b_φ θ *
          (dO + dA * (1 - b_φ θ ^ 2) - 2 * η_A θ * b_φ θ * dbφ) /
          (η_O θ + η_A θ * (1 - b_φ θ ^ 2)) ^ 2) θ := by
  have hN := (hH.fun_mul hθ).fun_add ((hA.fun_mul hr).fun_mul hφ)
  have hd := hO.fun_add (hA.fun_mul ((hφ.fun_pow 2).const_sub 1))
  refine (hN.fun_div hd hD).congr_deriv ?_
  simp only [X_dash_func]
  field_simp
  ring

/-- The only diffusion along the curve is Ohmic. -/
def Ohmic (f : ℝ → St) : Prop := ∀ t, (f t).η_A = 0 ∧ (f t).η_H = 0

/-- C59. Radial balance is *not* preserved by the velocity derivatives.  For
purely Ohmic diffusion and a state in radial balance with positive rotation, the
residual of the radial momentum equation changes at the rate
`-(a_0 B_θ² / (ρ η_O)) v_r'`: the code counts the drag of the radial inflow
twice in the derivative of the rotation speed. -/
theorem hydro_radial_drift (P : Args) (f : ℝ → St) (θ : ℝ) (d : St)
    (hsc : P.θ_scale = 1) (hn : P.no_v_deriv = false)
    (h : rhs_equation P θ (f θ) = (0, some d)) (hd : HasStDeriv f d θ)
    (hv : ∀ t, (f t).v_θ = 0) (hρ : (f θ).ρ ≠ 0) (hφ : 0 < (f θ).v_φ)
    (hO : Ohmic f) (hη : (f θ).η_O ≠ 0)
    (hb : RadialMomentum (5/4) P.a_0 P.norm_kepler_sq (flowOf θ (f θ) d)) :
    HasDerivAt (fun t => radialRes (5/4) P.a_0 P.norm_kepler_sq
        (flowOf t (f t) (rhsDerivs P t (f t))))
      (-(P.a_0 * (f θ).B_θ ^ 2 / ((f θ).ρ * (f θ).η_O)) * d.v_r) θ := by
  obtain ⟨-, -, -, hd'⟩ := accepted_iff h
  rw [hsc, mul_one] at hd'
  have hBr : ∀ t, (rhsDerivs P t (f t)).B_r =
      -((f t).v_r * (f t).B_θ) / (f t).η_O - (f t).B_θ / 4 := by
    intro t
    simp only [rhsDerivs, deriv_B_r_val, (hO t).1, (hO t).2]
    ring
  have e : (fun t => radialRes (5/4) P.a_0 P.norm_kepler_sq
      (flowOf t (f t) (rhsDerivs P t (f t)))) = fun t =>
      (P.norm_kepler_sq - 5/2) - (1/2 * (f t).v_r ^ 2 + (f t).v_φ ^ 2 +
        P.a_0 / (f t).ρ * ((f t).B_φ ^ 2 / 4 -
          (f t).v_r * (f t).B_θ ^ 2 / (f t).η_O)) := by
    funext t
    simp only [radialRes, flowOf, hv t, hBr t]
    ring
  rw [e]
  have D := (((((hd.v_r.fun_pow 2).const_mul (1/2)).fun_add
    (hd.v_φ.fun_pow 2)).fun_add
    (((hasDerivAt_const θ P.a_0).fun_div hd.ρ hρ).fun_mul
      (((hd.B_φ.fun_pow 2).div_const 4).fun_sub
        ((hd.v_r.fun_mul (hd.B_θ.fun_pow 2)).fun_div hd.η_O hη)))).const_sub
      (P.norm_kepler_sq - 5/2))
  refine D.congr_deriv ?_
  have hBφ : d.B_φ = (f θ).X := by rw [hd']; rfl
  have hBrθ := hBr θ
  rw [← hd'] at hBrθ
  simp only [RadialMomentum, radialRes, flowOf, hv θ, hBrθ] at hb
  have hA : d.η_A = 0 := by
    have : (fun t => (f t).η_A) = fun _ => 0 := funext fun t => (hO t).1
    exact (this ▸ hd.η_A).unique (hasDerivAt_const θ 0)
  have hH : d.η_H = 0 := by
    have : (fun t => (f t).η_H) = fun _ => 0 := funext fun t => (hO t).2
    exact (this ▸ hd.η_H).unique (hasDerivAt_const θ 0)
  obtain ⟨dbθ, dbφ, dbr, hv'⟩ := v_φ_deriv P θ (f θ) hn _ _ _ _ _ rfl rfl rfl
    rfl rfl
  rw [← hd', hA, hH, (hO θ).1, (hO θ).2] at hv'
  have hBθ : d.B_θ = (f θ).B_θ * Real.tan θ - 3/4 * (f θ).B_r := by rw [hd']; rfl
  generalize f θ = s at *
  have hX : X_func s.η_O 0 0 (s.B_θ / B_mag s) (s.B_r / B_mag s)
      (s.B_φ / B_mag s) = 0 := by simp [X_func]
  have hXd : X_dash_func s.η_O 0 0 (s.B_θ / B_mag s) (s.B_r / B_mag s)
      (s.B_φ / B_mag s) d.η_O 0 0 dbθ dbr dbφ = 0 := by simp [X_dash_func]
  rw [hX, hXd] at hv'
  have hb0 : b_func 0 s.v_r = 0 := by simp [b_func]
  -- the square root is twice the rotation speed
  have hc : c_func θ P.norm_kepler_sq P.a_0 0 s.v_r s.B_φ s.B_θ s.B_r s.ρ 0
      s.η_O 0 (s.B_φ / B_mag s) (s.B_r / B_mag s) (s.B_θ / B_mag s) =
      -s.v_φ ^ 2 := by
    simp only [c_func]
    linear_combination (-1) * hb
  have hsq : Real.sqrt (0 ^ 2 - 4 * -s.v_φ ^ 2) = 2 * s.v_φ := by
    have : (0 : ℝ) ^ 2 - 4 * -s.v_φ ^ 2 = (2 * s.v_φ) ^ 2 := by ring
    rw [this, Real.sqrt_sq (by positivity)]
  rw [hb0, hc] at hv'
  simp only [Z_2_func, Z_3_func, hsq] at hv'
  have hφ' := hφ.ne'
  rw [hBφ]
  push_cast
  have hv2 : 2 * s.v_φ * d.v_φ = (P.a_0 * d.ρ / s.ρ ^ 2 * (s.B_φ ^ 2 / 4 -
      s.B_θ / s.η_O * (s.v_r * s.B_θ)) - P.a_0 / s.ρ * (
        s.X * s.B_φ / 2 - (d.B_θ * s.η_O - s.B_θ * d.η_O) / s.η_O ^ 2 *
          (s.v_r * s.B_θ) - s.B_θ / s.η_O * (d.B_θ * s.v_r))) +
      d.v_r * (- s.v_r + 2 * P.a_0 * s.B_θ ^ 2 / (s.ρ * s.η_O)) := by
    rw [hv']
    simp only [zero_mul, mul_zero, add_zero, sub_zero, zero_add, zero_div]
    field_simp
    ring
  clear hv'
  linear_combination (norm := (field_simp; ring)) (-1) * hv2

/-! ### A concrete state -/

/-- A purely Ohmic state in radial and azimuthal balance, for `witHP`. -/
noncomputable def witH : St :=
  { B_r := 0, B_φ := 1, B_θ := 1, v_r := -1, v_φ := 2, v_θ := 0, ρ := 1,
    X := -1, η_O := 1, η_A := 0, η_H := 0 }

/-- Parameters for `witH`. -/
noncomputable def witHP : Args :=
  { a_0 := 1, norm_kepler_sq := 33/4, init_con := witH, η_derivs := false,
    no_v_deriv := false }

theorem witH_disc : discriminant witHP (0 * witHP.θ_scale) witH = 16 := by
  norm_num [discriminant, witHP, witH, c_func, b_func, X_func]

theorem witH_accepted :
    rhs_equation witHP 0 witH = (0, some (rhsDerivs witHP 0 witH)) := by
  have h := witH_disc
  simp only [zero_mul] at h
  simp only [rhs_equation, scaled_to_rad, zero_mul, h]
  norm_num [witH]

/-- With frozen velocities. -/
example := hydro_frozen_velocities { witHP with no_v_deriv := true } 0 witH
  (rhsDerivs { witHP with no_v_deriv := true } 0 witH) 0 (by
    have h := witH_disc
    simp only [zero_mul] at h
    have h' : discriminant { witHP with no_v_deriv := true } 0 witH = 16 := h
    simp only [rhs_equation, scaled_to_rad, zero_mul, h']
    norm_num [witH]) rfl

theorem witH_static : Static witH :=
  ⟨rfl, by norm_num [witH], by norm_num [witH]⟩

theorem sqrt_16 : Real.sqrt 16 = 4 := by
  rw [show (16:ℝ) = 4 ^ 2 by norm_num, Real.sqrt_sq (by norm_num)]

theorem witH_derivs : (rhsDerivs witHP 0 witH).v_r = 43/110 ∧
    (rhsDerivs witHP 0 witH).B_r = 3/4 ∧ (rhsDerivs witHP 0 witH).B_φ = -1 ∧
    (rhsDerivs witHP 0 witH).η_A = 0 ∧ (rhsDerivs witHP 0 witH).η_H = 0 ∧
    (rhsDerivs witHP 0 witH).v_θ = 0 := by
  refine ⟨?_, ?_, rfl, rfl, rfl, rfl⟩
  · simp only [rhsDerivs]
    norm_num [witHP, witH, c_func, b_func, X_func, X_dash_func,
      Z_1_func, Z_2_func, Z_3_func, Z_4_func, Z_6_func, Z_7_func, Z_5_func,
      C_func, A_func, dderiv_B_φ_func, deriv_v_r_func, deriv_B_r_val,
      deriv_ρ_val, sec, sqrt_16]
  · norm_num [rhsDerivs, witHP, witH, deriv_B_r_val]

example := hydro_statics witHP 0 witH _ _ witH_accepted witH_static

theorem witH_radial : RadialMomentum (5/4) witHP.a_0 witHP.norm_kepler_sq
    (flowOf 0 witH (rhsDerivs witHP 0 witH)) := by
  simp only [RadialMomentum, radialRes, flowOf, witH_derivs.2.1]
  norm_num [witH, witHP]

theorem witH_azimuthal : AzimuthalMomentum (5/4) witHP.a_0
    (flowOf 0 witH (rhsDerivs witHP 0 witH)) := by
  simp only [AzimuthalMomentum, azimuthalRes, flowOf, witH_derivs.2.2.1]
  norm_num [witH, witHP]

example := hydro_balanced_accepted witHP 0 witH (rhsDerivs witHP 0 witH)
  witH_static (by norm_num [witH]) rfl
  (by
    have := (hydro_statics witHP 0 witH _ _ witH_accepted witH_static).2.2.2.1
    simpa using this)
  (by simpa using witH_radial) (by simpa using witH_azimuthal)

/-- The straight curve through `witH` along its derivatives. -/
noncomputable def witCurve : ℝ → St := line witH (rhsDerivs witHP 0 witH) 0

theorem witCurve_zero : witCurve 0 = witH := line_at _ _ _

theorem witCurve_follows : rhs_equation witHP 0 (witCurve 0) =
    (0, some (rhsDerivs witHP 0 witH)) := by
  rw [witCurve_zero]; exact witH_accepted

theorem witCurve_static (t : ℝ) : (witCurve t).v_θ = 0 := by
  simp [witCurve, line, St.add, St.smul, witH_derivs]
  rfl

theorem witCurve_ohmic : Ohmic witCurve := by
  intro t
  constructor
  · simp [witCurve, line, St.add, St.smul, witH_derivs]
    rfl
  · simp [witCurve, line, St.add, St.smul, witH_derivs]
    rfl

theorem witH_denom : velDenom witHP 0 witH = 5/2 := by
  norm_num [velDenom, witHP, witH, c_func, b_func, X_func, Z_3_func, Z_4_func,
    sqrt_16]

example := hydro_azimuthal_preserved witHP witCurve 0 _ rfl rfl witCurve_follows
  (hasStDeriv_line _ _ _) witCurve_static
  (by rw [witCurve_zero]; norm_num [witH]) (by rw [witCurve_zero]; norm_num [witH])
  (by simp) (by rw [witCurve_zero, witH_denom]; norm_num)
  (by rw [witCurve_zero]; exact witH_azimuthal)

/-- C59 is false for the radial balance: there is a curve following the
hydrostatic right-hand side through a state in full balance along which the
residual of the radial momentum equation has a nonzero derivative. -/
theorem hydro_radial_not_preserved : ∃ (P : Args) (f : ℝ → St) (θ : ℝ) (d : St)
    (r : ℝ), rhs_equation P θ (f θ) = (0, some d) ∧ HasStDeriv f d θ ∧
    Static (f θ) ∧
    RadialMomentum (5/4) P.a_0 P.norm_kepler_sq (flowOf θ (f θ) d) ∧
    AzimuthalMomentum (5/4) P.a_0 (flowOf θ (f θ) d) ∧ r ≠ 0 ∧
    HasDerivAt (fun t => radialRes (5/4) P.a_0 P.norm_kepler_sq
      (flowOf t (f t) (rhsDerivs P t (f t)))) r θ := by
  refine ⟨witHP, witCurve, 0, _, _, witCurve_follows, hasStDeriv_line _ _ _,
    by rw [witCurve_zero]; exact witH_static,
    by rw [witCurve_zero]; exact witH_radial,
    by rw [witCurve_zero]; exact witH_azimuthal, ?_,
    hydro_radial_drift witHP witCurve 0 _ rfl rfl witCurve_follows
      (hasStDeriv_line _ _ _) witCurve_static
      (by rw [witCurve_zero]; norm_num [witH])
      (by rw [witCurve_zero]; norm_num [witH]) witCurve_ohmic
      (by rw [witCurve_zero]; norm_num [witH])
      (by rw [witCurve_zero]; exact witH_radial)⟩
  rw [witCurve_zero, witH_derivs.1]
  norm_num [witH, witHP]

/-- The right-hand side parameters which `solution` builds from initial
conditions. -/
def argsOf (c : Conditions) (η_derivs no_v_deriv : Bool) : Args :=
  { a_0 := c.a_0, norm_kepler_sq := c.norm_kepler_sq, init_con := c.init_con,
    η_derivs := η_derivs, no_v_deriv := no_v_deriv }

/-- C59. The initial conditions are accepted by the right-hand side and start in
full hydrostatic balance: all six equations hold at the midplane. -/
theorem hydro_midplane (inp : NumInput) (c : Conditions) (e n : Bool)
    (h : hydrostatic_define_conditions inp = some c) (hE : inp.use_E_r = false)
    (ha : inp.v_a_on_c_s ≠ 0) (hη : inp.η_O + inp.η_A ≠ 0) :
    ∃ d, rhs_equation (argsOf c e n) 0 c.init_con = (0, some d) ∧
      Continuity (5/4) (flowOf 0 c.init_con d) ∧
      Solenoid (5/4) (flowOf 0 c.init_con d) ∧
      PolarMomentum (5/4) c.a_0 (flowOf 0 c.init_con d) ∧
      PolarInduction (5/4) 0 0 1 (flowOf 0 c.init_con d) ∧
      RadialMomentum (5/4) c.a_0 c.norm_kepler_sq (flowOf 0 c.init_con d) ∧
      AzimuthalMomentum (5/4) c.a_0 (flowOf 0 c.init_con d) := by
  unfold hydrostatic_define_conditions v_φ_boundary_func at h
  by_cases hd : v_φ_discriminant (-inp.v_rin_on_c_s) inp.η_H (inp.η_O + inp.η_A)
      (1 / inp.c_s_on_v_k ^ 2) (inp.v_a_on_c_s ^ 2) 0 < 0
  · simp only [hd, if_true] at h
    cases h
  simp only [hd, if_false, hE, Bool.false_eq_true, Option.some.injEq] at h
  have hsq := Real.sq_sqrt (not_lt.1 hd)
  generalize Real.sqrt _ = q at h hsq
  have hm : B_mag c.init_con = 1 := by
    rw [← h]; norm_num [B_mag]
  have hs : Static c.init_con := by
    refine ⟨by rw [← h], by rw [← h]; norm_num, ?_⟩
    rw [hm, ← h]
    simpa using hη
  -- the flow with the radial field gradient demanded by induction
  have hB : (rhsDerivs (argsOf c e n) 0 c.init_con).B_r =
      (-(c.init_con.X * c.init_con.η_H) - c.init_con.v_r) /
        (c.init_con.η_O + c.init_con.η_A) - 1 / 4 := by
    simp only [rhsDerivs, deriv_B_r_val, hm]
    rw [← h]
    norm_num
  have hr : RadialMomentum (5/4) c.a_0 c.norm_kepler_sq
      (flowOf 0 c.init_con (rhsDerivs (argsOf c e n) 0 c.init_con)) := by
    simp only [RadialMomentum, radialRes, flowOf, hB]
    rw [← h]
    simp only [B_φ_prime_boundary_func]
    simp only [v_φ_discriminant] at hsq
    linear_combination (norm := (field_simp; ring)) (-1) * hsq
  have haz : AzimuthalMomentum (5/4) c.a_0
      (flowOf 0 c.init_con (rhsDerivs (argsOf c e n) 0 c.init_con)) := by
    have : (rhsDerivs (argsOf c e n) 0 c.init_con).B_φ = c.init_con.X := rfl
    simp only [AzimuthalMomentum, azimuthalRes, flowOf, this]
    rw [← h]
    simp only [B_φ_prime_boundary_func, Real.tan_zero]
    field_simp
    ring
  have hpi : PolarInduction (5/4) 0 0 1
      (flowOf 0 c.init_con (rhsDerivs (argsOf c e n) 0 c.init_con)) := by
    simp only [PolarInduction, polarInductionRes, flowOf, hB]
    have : (rhsDerivs (argsOf c e n) 0 c.init_con).B_φ = c.init_con.X := rfl
    rw [this, ← h]
    simp only [Real.tan_zero]
    field_simp
    ring
  have hac : ∃ d, rhs_equation (argsOf c e n) 0 c.init_con = (0, some d) := by
    refine hydro_balanced_accepted (argsOf c e n) 0 c.init_con
      (rhsDerivs (argsOf c e n) 0 c.init_con) hs (by rw [← h]; norm_num) rfl
      ?_ ?_ ?_
    · rw [zero_mul, hm]
      have e1 : c.init_con.B_r / 1 = 0 := by rw [← h]; norm_num
      have e2 : c.init_con.B_φ / 1 = 0 := by rw [← h]; norm_num
      have e3 : c.init_con.B_θ / 1 = 1 := by rw [← h]; norm_num
      rw [e1, e2, e3]
      exact hpi
    · rw [zero_mul]; exact hr
    · rw [zero_mul]; exact haz
  obtain ⟨d, hd⟩ := hac
  obtain ⟨-, -, -, rfl⟩ := accepted_iff hd
  have st := hydro_statics _ _ _ _ _ hd hs
  rw [zero_mul] at st hd
  exact ⟨_, hd, st.1, st.2.1, st.2.2.1, hpi, hr, haz⟩

/-- A typical input. -/
noncomputable def witIn : NumInput :=
  { start := 0, stop := 5, num_angles := 100, γ := 0, v_rin_on_c_s := 1,
    v_a_on_c_s := 1, c_s_on_v_k := 1/10, η_O := 1, η_A := 1, η_H := 1/2,
    use_E_r := false }

theorem witIn_ok : ∃ c, hydrostatic_define_conditions witIn = some c := by
  unfold hydrostatic_define_conditions v_φ_boundary_func
  have hd : ¬ v_φ_discriminant (-witIn.v_rin_on_c_s) witIn.η_H
      (witIn.η_O + witIn.η_A) (1 / witIn.c_s_on_v_k ^ 2)
      (witIn.v_a_on_c_s ^ 2) 0 < 0 := by
    norm_num [v_φ_discriminant, witIn]
  simp only [hd, if_false]
  exact ⟨_, rfl⟩

example := hydro_midplane witIn _ true false witIn_ok.choose_spec rfl
  (by norm_num [witIn]) (by norm_num [witIn])

section
variable {μ σ : Type}

/-- C59. What the hydrostatic solver leaves in the run.  With the electric field
formulation it always refuses and leaves the run alone; a failing integration
also leaves the run alone; otherwise a fresh run ends with the one solution,
stored under "0", which is also the final solution, and success is reported. -/
theorem hydro_solver (integrate : Conditions → Except PyErr σ) (inp : NumInput)
    (run : Run μ σ) :
    (inp.use_E_r = true → solver integrate inp run = (run, .error .SolverError)) ∧
    ((∀ c s, integrate c ≠ .ok s) → ∃ e, solver integrate inp run = (run, .error e)) ∧
    (∀ c s, hydrostatic_define_conditions inp = some c → inp.use_E_r = false →
      integrate c = .ok s → run.solutions = [] → run.final = .delayed →
      ∃ r, solver integrate inp run = (r, .ok true) ∧
        r.solutions = [("0", s)] ∧ r.finalSolution = .soln s ∧ r.info = run.info) := by
  refine ⟨?_, ?_, ?_⟩
  · intro h
    unfold solver
    cases hydrostatic_define_conditions inp <;> simp [h]
  · intro h
    unfold solver
    cases hydrostatic_define_conditions inp with
    | none => exact ⟨_, rfl⟩
    | some c =>
      cases hE : inp.use_E_r
      · cases hi : integrate c with
        | error e => exact ⟨e, by simp [hi]⟩
        | ok s => exact absurd hi (h c s)
      · exact ⟨.SolverError, by simp⟩
  · intro c s hc hE hi hs hf
    refine ⟨{ run with solutions := [("0", s)], final := .value (some s) },
      ?_, rfl, rfl, rfl⟩
    simp only [solver, hc, hE, hi, storeSingle, Run.setFinal, hf, hs, Dict.set,
      Bool.false_eq_true, if_false]

example := (hydro_solver (μ := Unit) (fun _ => .ok "s") witIn { info := () }).2.2 _ "s"
  witIn_ok.choose_spec rfl rfl rfl rfl

end

end DiscSolver.Hydro
